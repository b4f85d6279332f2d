import Verif.GridSpec

/-
  Refinement proof: the model of soa_grid implements the specification in `Verif.GridSpec`.
-/
set_option linter.unusedSectionVars false
namespace LFA

section
variable {V : Type} [DecidableEq V] {C : Cfg V}

/-- Content of the buffer of a grid whose cells have the given values; the padding cells hold no objects. -/
def gridCont (d e : Ext) (cells : Nat → Nat → Nat → Cell V) : Cont V := fun r k i =>
  if unX e i < d.x ∧ unY e i < d.y ∧ unZ e i < d.z then some (cells (unX e i) (unY e i) (unZ e i) r k) else none

theorem inBox_iff {d e : Ext} (hd : d.Fits e) (i : Nat) :
    InBox d e i ↔ unX e i < d.x ∧ unY e i < d.y ∧ unZ e i < d.z := by
  obtain ⟨h1, h2, h3⟩ := hd
  constructor
  · rintro ⟨x, y, z, hx, hy, hz, rfl⟩
    rw [unX_lin (by omega), unY_lin (by omega) (by omega), unZ_lin (by omega) (by omega)]
    exact ⟨hx, hy, hz⟩
  · rintro ⟨hx, hy, hz⟩
    exact ⟨_, _, _, hx, hy, hz, (lin_un i).symm⟩

theorem gridCont_in {d e : Ext} (hd : d.Fits e) {cells : Nat → Nat → Nat → Cell V} {r k i : Nat} (h : InBox d e i) :
    gridCont d e cells r k i = some (cells (unX e i) (unY e i) (unZ e i) r k) := by
  unfold gridCont; rw [if_pos ((inBox_iff hd i).1 h)]

theorem gridCont_out {d e : Ext} (hd : d.Fits e) {cells : Nat → Nat → Nat → Cell V} {r k i : Nat} (h : ¬ InBox d e i) :
    gridCont d e cells r k i = none := by
  unfold gridCont; rw [if_neg (fun h' => h ((inBox_iff hd i).2 h'))]

theorem gridCont_lin {d e : Ext} (hd : d.Fits e) {cells : Nat → Nat → Nat → Cell V} {r k x y z : Nat}
    (hx : x < d.x) (hy : y < d.y) (hz : z < d.z) : gridCont d e cells r k (lin e x y z) = some (cells x y z r k) := by
  rw [gridCont_in hd ⟨x, y, z, hx, hy, hz, rfl⟩]
  obtain ⟨h1, h2, h3⟩ := hd
  rw [unX_lin (by omega), unY_lin (by omega) (by omega), unZ_lin (by omega) (by omega)]

theorem byteSizeOf_eq (L : Layout V) (e : Ext) : byteSizeOf L e = aggSize L * e.prod := by
  unfold byteSizeOf Ext.prod; ring

/-- `g` (with its buffer in `h`) represents the array `a`. -/
def GridOK (C : Cfg V) (h : Heap V) (g : Grid) (a : AGrid V) : Prop :=
  g.dim = a.dim ∧ ∃ e id b, selectSizes C.tr a.dim = .ok e ∧ g.data = some id ∧ h.blk id = some b ∧
    b.size = aggSize C.L * e.prod ∧ g.bs = some (byteSizeOf C.L e) ∧
    View C.L e.prod b (gridCont a.dim e a.cells) ∧
    (∀ e', a.ext = some e' → e' = e ∧ g.ex = some e.x ∧ g.ey = some e.y ∧ g.ez = some e.z)

/-- A freed buffer in which no object with a non-trivial destructor is alive any more. -/
def Clean (b : Block V) : Prop := ∀ i, i < b.size → (b.get i).nonTriv = false

theorem clean_of_view (hL : C.L.WF) {P : Nat} {b : Block V} (hs : b.size = aggSize C.L * P) {c : Cont V}
    (hv : View C.L P b c)
    (hc : ∀ r m k i, C.L[r]? = some m → k < m.elems → i < P → m.ty.triv = false → c r k i = none) : Clean b := by
  intro a ha
  rw [hs] at ha
  obtain ⟨r, m, k, i, j, hm, hk, hi, hj, rfl⟩ := slot_cover hL ha
  cases hcv : c r k i with
  | none => exact hv.hnone r m k i hm hk hi hcv j hj
  | some v =>
    have := hv.hsome r m k i v hm hk hi hcv
    by_cases ht : m.ty.triv = true
    · exact this.noNT ht j hj
    · rw [hc r m k i hm hk hi (by simpa using ht)] at hcv; cases hcv

/-! ### Heap -/

theorem Heap.blk_set (h : Heap V) (id : Nat) (b : Block V) (i : Nat) :
    (h.set id b).blk i = if i = id then some b else h.blk i := rfl

@[simp] theorem Heap.blk_set_self (h : Heap V) (id : Nat) (b : Block V) : (h.set id b).blk id = some b := by
  simp [Heap.set]

theorem Heap.blk_set_ne (h : Heap V) {id i : Nat} (b : Block V) (hne : i ≠ id) : (h.set id b).blk i = h.blk i := by
  simp [Heap.set, hne]

/-- A grid is not affected by changes to other buffers. -/
theorem GridOK.frame {h h' : Heap V} {g : Grid} {a : AGrid V} (hg : GridOK C h g a)
    (hf : ∀ id, g.data = some id → h'.blk id = h.blk id) : GridOK C h' g a := by
  obtain ⟨h1, e, id, b, h2, h3, h4, h5⟩ := hg
  exact ⟨h1, e, id, b, h2, h3, by rw [hf id h3]; exact h4, h5⟩

/-! ### Member functions of a single grid -/

/-- Callbacks which modify the buffer. -/
theorem GridOK.callbackMut {h : Heap V} {g : Grid} {a a' : AGrid V} (hg : GridOK C h g a)
    (f : Ext → Block V → Except UB (Block V)) (hdim : a'.dim = a.dim) (hext : a'.ext = a.ext)
    (hf : ∀ e b, selectSizes C.tr a.dim = .ok e → View C.L e.prod b (gridCont a.dim e a.cells) →
      ∃ b', f e b = .ok b' ∧ Same C.L e.prod b b' ∧ View C.L e.prod b' (gridCont a.dim e a'.cells)) :
    ∃ id b', g.data = some id ∧ g.callbackMut C f h = .ok () (h.set id b') ∧ GridOK C (h.set id b') g a' := by
  obtain ⟨h1, e, id, b, h2, h3, h4, h5, h6, h7, h8⟩ := hg
  obtain ⟨b', k1, k2, k3⟩ := hf e b h2 h7
  refine ⟨id, b', h3, ?_, ?_⟩
  · simp only [Grid.callbackMut, onBuffer, h1, h2, h3, h4, k1]
  · refine ⟨h1.trans hdim.symm, e, id, b', by rw [hdim]; exact h2, h3, by simp, by rw [k2.1, h5], h6, by rw [hdim]; exact k3, ?_⟩
    rw [hext]; exact h8

/-- Callbacks which read the buffer only. -/
theorem GridOK.callbackRead {α : Type} {h : Heap V} {g : Grid} {a : AGrid V} (hg : GridOK C h g a)
    (f : Ext → Block V → Except UB α) (Q : α → Prop)
    (hf : ∀ e b, selectSizes C.tr a.dim = .ok e → View C.L e.prod b (gridCont a.dim e a.cells) → ∃ x, f e b = .ok x ∧ Q x) :
    ∃ x, g.callbackRead C f h = .ok x h ∧ Q x := by
  obtain ⟨h1, e, id, b, h2, h3, h4, h5, h6, h7, h8⟩ := hg
  obtain ⟨x, k1, k2⟩ := hf e b h2 h7
  refine ⟨x, ?_, k2⟩
  simp only [Grid.callbackRead, h1, h2, h3, h4, k1]

theorem inRow_iff {e : Ext} {x y z n : Nat} (hx : x + n ≤ e.x) (hy : y < e.y) (i : Nat) :
    (lin e x y z ≤ i ∧ i < lin e x y z + n) ↔ unY e i = y ∧ unZ e i = z ∧ x ≤ unX e i ∧ unX e i < x + n := by
  constructor
  · rintro ⟨h1, h2⟩
    have e1 : i = lin e (x + (i - lin e x y z)) y z := by rw [lin_succ]; omega
    rw [e1, unX_lin (by omega), unY_lin (by omega) hy, unZ_lin (by omega) hy]
    omega
  · rintro ⟨h1, h2, h3, h4⟩
    have e1 := lin_un (e := e) i
    rw [h1, h2] at e1
    have e2 : lin e (unX e i) y z = lin e x y z + (unX e i - x) := by rw [← lin_succ]; congr 1; omega
    omega

/-- Overwriting a row in the buffer is overwriting a row of the array. -/
theorem gridCont_setRow {d e : Ext} (hd : d.Fits e) {cells : Nat → Nat → Nat → Cell V} {x y z n : Nat}
    (hx : x + n ≤ d.x) (hy : y < d.y) (hz : z < d.z) {new : Nat → Cell V} {w : Cont V} {L : Layout V}
    (hw : ∀ r m k j, L[r]? = some m → k < m.elems → j < n → w r k (lin e x y z + j) = some (new j r k))
    {r m k i} (hm : L[r]? = some m) (hk : k < m.elems) :
    gridCont d e (Spec.setRow cells x y z n new) r k i =
      mark (gridCont d e cells) w (RowKeys L (lin e x y z) n) r k i := by
  obtain ⟨d1, d2, d3⟩ := hd
  have hiff := inRow_iff (e := e) (x := x) (y := y) (z := z) (n := n) (by omega) (by omega) i
  by_cases hr : lin e x y z ≤ i ∧ i < lin e x y z + n
  · rw [mark_pos ⟨hr, m, hm, hk⟩]
    obtain ⟨a1, a2, a3, a4⟩ := hiff.1 hr
    have hj := hw r m k (i - lin e x y z) hm hk (by omega)
    have e1 : lin e x y z + (i - lin e x y z) = i := by omega
    have e2 : i = lin e (x + (i - lin e x y z)) y z := by rw [lin_succ]; omega
    have e3 : unX e i = x + (i - lin e x y z) := by
      conv_lhs => rw [e2]
      exact unX_lin (by omega)
    rw [e1] at hj
    rw [hj]
    unfold gridCont Spec.setRow
    rw [if_pos ⟨by omega, by omega, by omega⟩, if_pos ⟨a1, a2, a3, a4⟩]
    have e4 : unX e i - x = i - lin e x y z := by omega
    rw [e4]
  · rw [mark_neg (fun h => hr h.1)]
    unfold gridCont
    split
    · congr 1
      unfold Spec.setRow
      rw [if_neg (fun h => hr (hiff.2 h))]
    · rfl

theorem fits_row {d e : Ext} (hd : d.Fits e) {x y z n : Nat} (hx : x + n ≤ d.x) (hy : y < d.y) (hz : z < d.z) :
    lin e x y z + n ≤ e.prod := by
  have h1 := row_end_in_prod hd hy hz
  have h2 := lin_zero e x y z
  omega

theorem gridCont_row_isSome {d e : Ext} (hd : d.Fits e) {cells : Nat → Nat → Nat → Cell V} {x y z n j r k : Nat}
    (hx : x + n ≤ d.x) (hy : y < d.y) (hz : z < d.z) (hj : j < n) :
    gridCont d e cells r k (lin e x y z + j) = some (cells (x + j) y z r k) := by
  rw [← lin_succ]; exact gridCont_lin hd (by omega) hy hz

/-- set and broadcast. -/
theorem GridOK.setFunctor (hL : C.L.WF) {h : Heap V} {g : Grid} {a : AGrid V} (hg : GridOK C h g a)
    {stride : Nat} {cells : List (Cell V)} {x y z n : Nat} {new : Nat → Cell V}
    (hsrc : ∀ j, j < n → cells[j * stride]? = some (new j))
    (hx : x + n ≤ a.dim.x) (hy : y < a.dim.y) (hz : z < a.dim.z) :
    ∃ id b', g.data = some id ∧
      g.callbackMut C (fun e => LFA.setFunctor C.L e stride cells x y z n) h = .ok () (h.set id b') ∧
      GridOK C (h.set id b') g { a with cells := Spec.setRow a.cells x y z n new } := by
  refine hg.callbackMut (a' := { a with cells := Spec.setRow a.cells x y z n new }) _ rfl rfl (fun e b hs hv => ?_)
  have hd := selectSizes_fits hs
  let w : Cont V := fun r k i => some (new (i - lin e x y z) r k)
  have hw : ∀ r m k j, C.L[r]? = some m → k < m.elems → j < n → w r k (lin e x y z + j) = some (new j r k) := by
    intro r m k j _ _ _
    show some _ = some _
    rw [Nat.add_sub_cancel_left]
  obtain ⟨b', k1, k2, k3⟩ := (Marks.setFunctor hL (fits_row hd hx hy hz) hsrc hw (c := gridCont a.dim e a.cells)
    (fun r m k j _ _ hj _ => by rw [gridCont_row_isSome hd hx hy hz hj]; rfl)).run hv
  exact ⟨b', k1, k2, k3.congr (fun r m k i hm hk _ => gridCont_setRow hd hx hy hz hw hm hk)⟩

/-- get. -/
theorem GridOK.get (hL : C.L.WF) {h : Heap V} {g : Grid} {a : AGrid V} (hg : GridOK C h g a)
    {x y z : Nat} (target : List (Cell V)) (hx : x + target.length ≤ a.dim.x) (hy : y < a.dim.y) (hz : z < a.dim.z) :
    ∃ out, g.get C x y z target target.length h = .ok out h ∧ out.length = target.length ∧
      ∀ j t, target[j]? = some t → out[j]? = some (overlay C.L (a.cells (x + j) y z) t) := by
  refine hg.callbackRead _ _ (fun e b hs hv => ?_)
  have hd := selectSizes_fits hs
  obtain ⟨out, k1, k2, k3, k4⟩ := getFunctor_ok hL (fits_row hd hx hy hz) hv (val := fun j => a.cells (x + j) y z)
    (fun r m k j hm hk hj => gridCont_row_isSome hd hx hy hz hj) target (Nat.le_refl _)
  refine ⟨out, k1, k2, fun j t ht => ?_⟩
  have hj : j < target.length := by
    rcases List.getElem?_eq_some_iff.1 ht with ⟨h, _⟩; exact h
  rw [k3 j hj, ht]; rfl

/-! ### Neighbour access by user functors -/

theorem userRef_slot (hL : C.L.WF) {A : Acc} {i r k : Nat} {m : Member V} (hA : A.At i) (hm : C.L[r]? = some m)
    (hk : k < m.elems) : A.userRef C.L r m k = (slot A.ext.prod (offset C.L r) m.ty.size k i : Nat) := by
  unfold Acc.userRef
  cases ha : m.arity with
  | none =>
    have : k = 0 := by rw [elems_none ha] at hk; omega
    subst this
    exact Acc.member_slot C.L hA r m 0 hk
  | some n => exact Acc.arrayRef_slot C.L hA r m k (hL.elems_pos hm)

theorem shift_At {e : Ext} {x y z X Y Z : Int} {px py pz : Nat} (hx : x + X = px) (hy : y + Y = py) (hz : z + Z = pz) :
    ((accAt e (genIndex e x y z)).shift X Y Z).At (lin e px py pz) := by
  unfold Acc.At Acc.shift accAt
  rw [← genIndex_lin, ← hx, ← hy, ← hz]
  unfold genIndex
  ring

theorem GridOK.poke (hL : C.L.WF) {h : Heap V} {g : Grid} {a : AGrid V} (hg : GridOK C h g a)
    {x y z X Y Z : Int} {px py pz r k : Nat} {m : Member V} (v : V) (hm : C.L[r]? = some m) (hk : k < m.elems)
    (hx : x + X = px) (hy : y + Y = py) (hz : z + Z = pz) (bx : px < a.dim.x) (by' : py < a.dim.y) (bz : pz < a.dim.z) :
    ∃ id b', g.data = some id ∧
      g.callbackMut C (fun e => pokeFunctor C.L e x y z X Y Z r k v) h = .ok () (h.set id b') ∧
      GridOK C (h.set id b') g
        { a with cells := Spec.setRow a.cells px py pz 1 (fun _ => (a.cells px py pz).set r k v) } := by
  refine hg.callbackMut (a' := { a with cells := _ }) _ rfl rfl (fun e b hs hv => ?_)
  have hd := selectSizes_fits hs
  have hA := shift_At (e := e) hx hy hz
  have hi : lin e px py pz < e.prod :=
    lin_lt (Nat.lt_of_lt_of_le bx hd.1) (Nat.lt_of_lt_of_le by' hd.2.1) (Nat.lt_of_lt_of_le bz hd.2.2)
  simp only [pokeFunctor, hm]
  rw [userRef_slot hL hA hm hk]
  have hrow : lin e px py pz + 0 = lin e px py pz := Nat.add_zero _
  obtain ⟨b', k1, k2, k3⟩ := (Marks.assign (c := gridCont a.dim e a.cells)
    (w := fun _ _ _ => some v) hL hm hk hi rfl rfl
    (fun _ => by rw [gridCont_lin hd bx by' bz]; rfl)).run hv
  refine ⟨b', k1, k2, k3.congr (fun r' m' k' i' hm' hk' _ => ?_)⟩
  rw [gridCont_setRow hd (x := px) (n := 1) (by omega) by' bz (L := C.L)
    (w := fun r' k' i' => some ((a.cells px py pz).set r k v r' k')) (fun _ _ _ _ _ _ _ => rfl) hm' hk']
  by_cases hi' : lin e px py pz ≤ i' ∧ i' < lin e px py pz + 1
  · have : i' = lin e px py pz := by omega
    subst this
    rw [mark_pos ⟨hi', m', hm', hk'⟩]
    by_cases hrk : r' = r ∧ k' = k
    · obtain ⟨rfl, rfl⟩ := hrk
      rw [mark_pos ⟨rfl, rfl, rfl⟩]
      simp [Cell.set]
    · rw [mark_neg (fun h => hrk ⟨h.1, h.2.1⟩), gridCont_lin hd bx by' bz]
      simp only [Cell.set, if_neg hrk]
  · rw [mark_neg (fun h => hi' h.1), mark_neg (fun h => hi' (by omega))]

theorem GridOK.peek (hL : C.L.WF) {h : Heap V} {g : Grid} {a : AGrid V} (hg : GridOK C h g a)
    {x y z X Y Z : Int} {px py pz r k : Nat} {m : Member V} (hm : C.L[r]? = some m) (hk : k < m.elems)
    (hx : x + X = px) (hy : y + Y = py) (hz : z + Z = pz) (bx : px < a.dim.x) (by' : py < a.dim.y) (bz : pz < a.dim.z) :
    g.callbackRead C (fun e b => peekFunctor C.L e x y z X Y Z r k b) h = .ok (some (a.cells px py pz r k)) h := by
  have := hg.callbackRead (fun e b => peekFunctor C.L e x y z X Y Z r k b) (fun o => o = some (a.cells px py pz r k))
    (fun e b hs hv => by
      have hd := selectSizes_fits hs
      have hA := shift_At (e := e) hx hy hz
      have hi : lin e px py pz < e.prod :=
        lin_lt (Nat.lt_of_lt_of_le bx hd.1) (Nat.lt_of_lt_of_le by' hd.2.1) (Nat.lt_of_lt_of_le bz hd.2.2)
      refine ⟨_, ?_, rfl⟩
      simp only [peekFunctor, hm]
      rw [userRef_slot hL hA hm hk]
      have := hv.read hL hm hk hi (gridCont_lin hd bx by' bz)
      show Except.map some (Block.read _ ((slot e.prod (offset C.L r) m.ty.size k (lin e px py pz) : Nat) : Int) _) = _
      rw [this]; rfl)
  obtain ⟨x, h1, rfl⟩ := this
  exact h1

/-! ### load and save -/

theorem bytesBefore_eq (L : Layout V) (r : Nat) : Spec.bytesBefore L r = offset L r := by
  induction r with
  | zero => simp [Spec.bytesBefore, offset]
  | succ r ih =>
    unfold offset
    rw [← ih]
    unfold Spec.bytesBefore
    rw [List.take_add_one]
    cases h : L[r]? with
    | none => simp
    | some m => simp

theorem structBytes_eq (L : Layout V) : Spec.structBytes L = aggSize L := by
  unfold aggSize
  rw [← bytesBefore_eq]
  unfold Spec.bytesBefore Spec.structBytes
  rw [List.take_length]

theorem packed_addr (L : Layout V) (n r s k i : Nat) :
    n * (Spec.bytesBefore L r + s * k) + i * s = slot n (offset L r) s k i := by
  rw [bytesBefore_eq, Nat.add_comm (offset L r)]; rfl

/-- Values known of a raw buffer. -/
def rowsCont (rows : List (Cell V)) : Cont V := fun r k i => (rows[i]?).map fun row => row r k

theorem packed_reads {L : Layout V} {n : Nat} {rows : List (Cell V)} {b : Block V} (h : Spec.Packed L n rows b) :
    Reads L n b (rowsCont rows) := by
  refine ⟨by rw [← structBytes_eq, Nat.mul_comm]; exact h.size, fun r m k i v hm hk hi hv => ?_⟩
  unfold rowsCont at hv
  cases hr : rows[i]? with
  | none => rw [hr] at hv; cases hv
  | some row =>
    rw [hr] at hv; cases hv
    rw [← packed_addr]
    exact h.vals r m k i row hm hk hr

theorem reads_packed {L : Layout V} {n : Nat} {rows : List (Cell V)} (hn : rows.length ≤ n) {b : Block V} {c : Cont V}
    (h : View L n b c) (hc : ∀ r m k i row, L[r]? = some m → k < m.elems → rows[i]? = some row → c r k i = some (row r k)) :
    Spec.Packed L n rows b := by
  refine ⟨by rw [structBytes_eq, Nat.mul_comm]; exact h.size, fun r m k i row hm hk hr => ?_⟩
  rw [packed_addr]
  have hi : i < rows.length := by rcases List.getElem?_eq_some_iff.1 hr with ⟨h, _⟩; exact h
  exact h.hsome r m k i _ hm hk (by omega) (hc r m k i row hm hk hr)

/-- The coordinates of one streak. -/
def rowCoords (x y z n : Nat) : List (Nat × Nat × Nat) := (List.range n).map fun j => (x + j, y, z)

theorem rowCoords_succ (x y z n : Nat) : rowCoords x y z (n + 1) = (x, y, z) :: rowCoords (x + 1) y z n := by
  unfold rowCoords
  rw [List.range_succ_eq_map]
  simp only [List.map_cons, List.map_map, Nat.add_zero]
  congr 1
  apply List.map_congr_left
  intro j _
  simp only [Function.comp, Nat.succ_eq_add_one]
  congr 1; omega

theorem coords_cons (s : Streak) (ss : List Streak) :
    Spec.coords (s :: ss) = rowCoords s.x s.y s.z s.len ++ Spec.coords ss := rfl

@[simp] theorem rowCoords_length (x y z n : Nat) : (rowCoords x y z n).length = n := by simp [rowCoords]

theorem scatter_append (l l' : List ((Nat × Nat × Nat) × Cell V)) (cells : Nat → Nat → Nat → Cell V) :
    Spec.scatter cells (l ++ l') = Spec.scatter (Spec.scatter cells l) l' := by
  induction l generalizing cells with
  | nil => rfl
  | cons p l ih => obtain ⟨p, c⟩ := p; exact ih _

theorem scatter_row (n x y z : Nat) (rs : List (Cell V)) (hn : n ≤ rs.length) (cells : Nat → Nat → Nat → Cell V)
    (new : Nat → Cell V) (hnew : ∀ j, j < n → rs[j]? = some (new j)) :
    Spec.scatter cells ((rowCoords x y z n).zip rs) = Spec.setRow cells x y z n new := by
  induction n generalizing x rs cells new with
  | zero =>
    funext x' y' z'
    unfold Spec.setRow
    rw [if_neg (by omega)]
    rfl
  | succ n ih =>
    cases rs with
    | nil => simp at hn
    | cons r rs =>
      rw [rowCoords_succ, List.zip_cons_cons]
      simp only [Spec.scatter]
      rw [ih (x + 1) rs (by simpa using hn) _ (fun j => new (j + 1)) (fun j hj => by
        have := hnew (j + 1) (by omega); simpa using this)]
      funext x' y' z'
      have h0 : r = new 0 := by have := hnew 0 (by omega); simpa using this
      unfold Spec.setRow
      by_cases h1 : y' = y ∧ z' = z ∧ x + 1 ≤ x' ∧ x' < x + 1 + n
      · rw [if_pos h1, if_pos (by omega)]
        have e5 : x' - (x + 1) + 1 = x' - x := by omega
        show new (x' - (x + 1) + 1) = _
        rw [e5]
      · rw [if_neg h1]
        by_cases h2 : x' = x ∧ y' = y ∧ z' = z
        · obtain ⟨rfl, rfl, rfl⟩ := h2
          simp [h0]
        · have h3 : ¬ ((x', y', z') = (x, y, z)) := by
            intro h; simp only [Prod.mk.injEq] at h; exact h2 h
          simp only [h3, if_false]
          rw [if_neg (by omega)]

theorem loadFunctor_ok {L : Layout V} (hL : L.WF) {d e : Ext} (hd : d.Fits e) {n : Nat} {src : Block V}
    {rows : List (Cell V)} (hsrc : Reads L n src (rowsCont rows)) (hrn : rows.length ≤ n) (ss : List Streak) :
    ∀ (off : Nat) (cells : Nat → Nat → Nat → Cell V) (b : Block V), (∀ st ∈ ss, Spec.StreakIn d st) →
      off + (Spec.coords ss).length ≤ rows.length → View L e.prod b (gridCont d e cells) →
      ∃ b', loadFunctor L e src n ss off b = .ok b' ∧ Same L e.prod b b' ∧
        View L e.prod b' (gridCont d e (Spec.scatter cells ((Spec.coords ss).zip (rows.drop off)))) := by
  induction ss with
  | nil => intro off cells b _ _ hb; exact ⟨b, rfl, Same.refl b, hb⟩
  | cons st ss ih =>
    intro off cells b hin hoff hb
    obtain ⟨hx, hy, hz⟩ := hin st (by simp)
    rw [coords_cons, List.length_append, rowCoords_length] at hoff
    let new : Nat → Cell V := fun j => (rows[off + j]?).getD (cells 0 0 0)
    have hnew : ∀ j, j < st.len → rows[off + j]? = some (new j) := by
      intro j hj
      show _ = some ((rows[off + j]?).getD _)
      rw [List.getElem?_eq_getElem (by omega)]; rfl
    let w : Cont V := fun r k i => some (new (i - lin e st.x st.y st.z) r k)
    have hw : ∀ r m k j, L[r]? = some m → k < m.elems → j < st.len →
        w r k (lin e st.x st.y st.z + j) = some (new j r k) := by
      intro r m k j _ _ _
      show some _ = some _
      rw [Nat.add_sub_cancel_left]
    have hAt : (accAt e (genIndex e st.x st.y st.z)).At (lin e st.x st.y st.z) := by
      rw [genIndex_lin]; exact accAt_At e _
    obtain ⟨b1, k1, k2, k3⟩ := (Marks.loadRaw (A := accAt e (genIndex e st.x st.y st.z)) hL hAt (count := st.len)
      (off := off) (stride := n) (fits_row hd hx hy hz) (by omega) (c := gridCont d e cells) (w := w)
      (src := fun _ => src) (cs := rowsCont rows) (fun _ _ _ => hsrc)
      (fun r m k j hm hk hj => ⟨new j r k, by unfold rowsCont; rw [hnew j hj]; rfl, hw r m k j hm hk hj⟩)
      (fun r m k j _ _ hj _ => by rw [gridCont_row_isSome hd hx hy hz hj]; rfl)).run hb
    have v1 : View L e.prod b1 (gridCont d e (Spec.setRow cells st.x st.y st.z st.len new)) :=
      k3.congr (fun r m k i hm hk _ => gridCont_setRow hd hx hy hz hw hm hk)
    obtain ⟨b2, j1, j2, j3⟩ := ih (off + st.len) _ b1 (fun s hs => hin s (by simp [hs])) (by omega) v1
    refine ⟨b2, ?_, k2.trans j2, ?_⟩
    · simp only [loadFunctor, k1]; exact j1
    · have e1 : (Spec.coords (st :: ss)).zip (rows.drop off) =
          (rowCoords st.x st.y st.z st.len).zip ((rows.drop off).take st.len) ++
            (Spec.coords ss).zip (rows.drop (off + st.len)) := by
        conv_lhs => rw [coords_cons, ← List.take_append_drop st.len (rows.drop off)]
        rw [List.zip_append (by simp; omega), List.drop_drop]
      rw [e1, scatter_append, scatter_row st.len _ _ _ _ (by simp; omega) cells new]
      · exact j3
      · intro j hj
        rw [List.getElem?_take_of_lt hj, List.getElem?_drop]
        exact hnew j hj

theorem GridOK.load (hL : C.L.WF) {h : Heap V} {g : Grid} {a : AGrid V} (hg : GridOK C h g a) {ss : List Streak}
    {src : Block V} {n : Nat} {rows : List (Cell V)} (hin : ∀ st ∈ ss, Spec.StreakIn a.dim st)
    (hlen : rows.length = (Spec.coords ss).length) (hn : (Spec.coords ss).length ≤ n) (hp : Spec.Packed C.L n rows src) :
    ∃ id b', g.data = some id ∧ g.load C ss src n h = .ok () (h.set id b') ∧
      GridOK C (h.set id b') g { a with cells := Spec.scatter a.cells ((Spec.coords ss).zip rows) } := by
  refine hg.callbackMut (a' := { a with cells := _ }) _ rfl rfl (fun e b hs hv => ?_)
  have := loadFunctor_ok hL (selectSizes_fits hs) (packed_reads hp) (by omega) ss 0 a.cells b hin (by omega) hv
  rw [List.drop_zero] at this
  exact this

theorem saveFunctor_ok {L : Layout V} (hL : L.WF) {d e : Ext} (hd : d.Fits e) {n : Nat} {b : Block V}
    {cells : Nat → Nat → Nat → Cell V} (hb : View L e.prod b (gridCont d e cells)) (ss : List Streak) :
    ∀ (done : List (Nat × Nat × Nat)) (tgt : Block V) (c : Cont V), (∀ st ∈ ss, Spec.StreakIn d st) →
      done.length + (Spec.coords ss).length ≤ n → View L n tgt c →
      (∀ r m k i p, L[r]? = some m → k < m.elems → done[i]? = some p → c r k i = some (cells p.1 p.2.1 p.2.2 r k)) →
      (∀ r m k i, L[r]? = some m → k < m.elems → i < n → m.ty.triv = false → (c r k i).isSome) →
      ∃ tgt' c', saveFunctor L e b n ss done.length tgt = .ok tgt' ∧ Same L n tgt tgt' ∧ View L n tgt' c' ∧
        (∀ r m k i p, L[r]? = some m → k < m.elems → (done ++ Spec.coords ss)[i]? = some p →
          c' r k i = some (cells p.1 p.2.1 p.2.2 r k)) := by
  induction ss with
  | nil =>
    intro done tgt c _ _ hv hdone _
    refine ⟨tgt, c, rfl, Same.refl tgt, hv, ?_⟩
    simpa [Spec.coords] using hdone
  | cons st ss ih =>
    intro done tgt c hin hlen hv hdone hlive
    obtain ⟨hx, hy, hz⟩ := hin st (by simp)
    rw [coords_cons, List.length_append, rowCoords_length] at hlen
    let w : Cont V := fun r k i => some (cells (st.x + (i - done.length)) st.y st.z r k)
    have hAt : (accAt e (genIndex e st.x st.y st.z)).At (lin e st.x st.y st.z) := by
      rw [genIndex_lin]; exact accAt_At e _
    obtain ⟨t1, k1, k2, k3⟩ := (Marks.saveRaw (A := accAt e (genIndex e st.x st.y st.z)) hL hAt (count := st.len)
      (off := done.length) (stride := n) (fits_row hd hx hy hz) (by omega) (c := c) (w := w) hb.reads
      (fun r m k j hm hk hj => ⟨_, gridCont_row_isSome hd hx hy hz hj, by
        show some _ = some _
        rw [Nat.add_sub_cancel_left]⟩)
      (fun r m k j hm hk hj ht => hlive r m k _ hm hk (by omega) ht)).run hv
    have := ih (done ++ rowCoords st.x st.y st.z st.len) t1 _ (fun s hs => hin s (by simp [hs]))
      (by rw [List.length_append, rowCoords_length]; omega) k3 ?_ ?_
    · obtain ⟨t2, c2, j1, j2, j3, j4⟩ := this
      rw [List.length_append, rowCoords_length] at j1
      refine ⟨t2, c2, ?_, k2.trans j2, j3, ?_⟩
      · simp only [saveFunctor, k1]; exact j1
      · intro r m k i p hm hk hp
        rw [coords_cons, ← List.append_assoc] at hp
        exact j4 r m k i p hm hk hp
    · intro r m k i p hm hk hp
      by_cases hi : i < done.length
      · rw [List.getElem?_append_left hi] at hp
        rw [mark_neg (fun h => by have := h.1; omega)]
        exact hdone r m k i p hm hk hp
      · rw [List.getElem?_append_right (by omega)] at hp
        unfold rowCoords at hp
        rw [List.getElem?_map] at hp
        have hlt : i - done.length < st.len := by
          by_contra hge
          rw [List.getElem?_eq_none (by simp; omega)] at hp
          cases hp
        rw [List.getElem?_eq_getElem (by simpa using hlt)] at hp
        simp only [List.getElem_range, Option.map_some, Option.some.injEq] at hp
        subst hp
        rw [mark_pos ⟨by omega, m, hm, hk⟩]
    · intro r m k i hm hk hi ht
      unfold mark
      split
      · rfl
      · exact hlive r m k i hm hk hi ht

theorem rawReady_view {L : Layout V} (hL : L.WF) {n : Nat} {b : Block V} (h : Spec.RawReady L n b) :
    ∃ c, View L n b c ∧
      (∀ r m k i, L[r]? = some m → k < m.elems → i < n → m.ty.triv = false → (c r k i).isSome) := by
  let c : Cont V := fun r k i =>
    match L[r]? with
    | some m => if m.ty.triv then none else b.rd (slot n (offset L r) m.ty.size k i) m.ty
    | none => none
  have hlive : ∀ r m k i, L[r]? = some m → k < m.elems → i < n → m.ty.triv = false →
      ∃ v, c r k i = some v ∧ b.Holds (slot n (offset L r) m.ty.size k i) m.ty v := by
    intro r m k i hm hk hi ht
    obtain ⟨v, hv⟩ := h.live r m k i hm hk hi ht
    rw [packed_addr] at hv
    refine ⟨v, ?_, hv⟩
    simp only [c, hm, ht]
    exact Block.rd_of_holds (hL.size_pos hm) hv
  refine ⟨c, ⟨by rw [← structBytes_eq, Nat.mul_comm]; exact h.size, ?_, ?_⟩, ?_⟩
  · intro r m k i v hm hk hi hv
    by_cases ht : m.ty.triv = true
    · simp only [c, hm, ht, if_true] at hv; cases hv
    · obtain ⟨v', h1, h2⟩ := hlive r m k i hm hk hi (by simpa using ht)
      rw [h1] at hv; cases hv; exact h2
  · intro r m k i hm hk hi hv
    by_cases ht : m.ty.triv = true
    · have := h.triv r m k i hm hk hi ht
      rw [packed_addr] at this; exact this
    · obtain ⟨v', h1, h2⟩ := hlive r m k i hm hk hi (by simpa using ht)
      rw [h1] at hv; cases hv
  · intro r m k i hm hk hi ht
    obtain ⟨v', h1, h2⟩ := hlive r m k i hm hk hi ht
    rw [h1]; rfl

theorem GridOK.save (hL : C.L.WF) {h : Heap V} {g : Grid} {a : AGrid V} (hg : GridOK C h g a) {ss : List Streak}
    {tgt : Block V} {n : Nat} (hin : ∀ st ∈ ss, Spec.StreakIn a.dim st)
    (hn : (Spec.coords ss).length ≤ n) (hp : Spec.RawReady C.L n tgt) :
    ∃ out, g.save C ss tgt n h = .ok out h ∧
      Spec.Packed C.L n ((Spec.coords ss).map fun p => a.cells p.1 p.2.1 p.2.2) out ∧
      out.size = tgt.size ∧ (∀ i, n * Spec.structBytes C.L ≤ i → out.get i = tgt.get i) := by
  refine hg.callbackRead _ _ (fun e b hs hv => ?_)
  obtain ⟨c, hc, hlive⟩ := rawReady_view hL hp
  obtain ⟨out, c', k1, k2, k3, k4⟩ := saveFunctor_ok hL (selectSizes_fits hs) hv ss [] tgt c hin (by simpa using hn) hc
    (fun r m k i p _ _ hp => by simp at hp) hlive
  refine ⟨out, k1, ?_, k2.1, fun i hi => k2.2 i (by rw [← structBytes_eq, Nat.mul_comm]; exact hi)⟩
  refine reads_packed (by simpa using hn) k3 (fun r m k i row hm hk hr => ?_)
  rw [List.getElem?_map] at hr
  cases hp : (Spec.coords ss)[i]? with
  | none => rw [hp] at hr; cases hr
  | some p =>
    rw [hp] at hr; cases hr
    exact k4 r m k i p hm hk (by simpa using hp)

/-! ### Lifecycle -/

/-- `destroy_and_deallocate` ends the lifetime of all objects and frees the buffer. -/
theorem GridOK.destroy (hL : C.L.WF) {h : Heap V} {g : Grid} {a : AGrid V} (hg : GridOK C h g a) :
    ∃ id h', g.data = some id ∧ g.destroyAndDeallocate C h = .ok () h' ∧ h'.next = h.next ∧ h'.blk id = none ∧
      (∀ i, i ≠ id → h'.blk i = h.blk i) ∧ ∃ b, Clean b ∧ h'.freed = h.freed ++ [b] := by
  obtain ⟨h1, e, id, b, h2, h3, h4, h5, h6, h7, h8⟩ := hg
  have hd := selectSizes_fits h2
  obtain ⟨b', k1, k2, k3⟩ := (Marks.destroyFunctor hL hd (c := gridCont a.dim e a.cells) (w := fun _ _ _ => none)
    (fun _ _ _ _ _ _ _ => rfl) (fun r m k i _ _ hi _ => by rw [gridCont_in hd hi]; rfl)).run h7
  refine ⟨id, ⟨h.next, fun i => if i = id then none else h.blk i, h.freed ++ [b']⟩, h3, ?_, rfl, by simp,
    fun i hi => by simp [hi], b', ?_, rfl⟩
  · simp only [Grid.destroyAndDeallocate, h3, Grid.callbackMut, onBuffer, h1, h2, h4, k1, Res.bind, h6, Heap.dealloc,
      Heap.blk_set_self]
    rw [if_pos (by rw [k2.1, h5, byteSizeOf_eq])]
    simp only [Res.ofExcept]
    congr 2
    funext i
    by_cases hi : i = id
    · simp [hi]
    · simp [hi, Heap.set]
  · refine clean_of_view hL (by rw [k2.1, h5]) k3 (fun r m k i hm hk hi _ => ?_)
    by_cases hb : InBox a.dim e i
    · rw [mark_pos ⟨hb, m, hm, hk⟩]
    · rw [mark_neg (fun h => hb h.1), gridCont_out hd hb]

/-- Allocation and construction of all cells. -/
theorem grid_init (hL : C.L.WF) {h : Heap V} {d e : Ext} (hs : selectSizes C.tr d = .ok e) (dv : V) (g : Grid)
    (hdim : g.dim = d) (hbs : g.bs = some (byteSizeOf C.L e)) (hdata : g.data = some h.next)
    (ext : Option Ext) (hext : ∀ e', ext = some e' → e' = e ∧ g.ex = some e.x ∧ g.ey = some e.y ∧ g.ez = some e.z) :
    ∃ b, g.init C (h.alloc (byteSizeOf C.L e)).2 = .ok () ((h.alloc (byteSizeOf C.L e)).2.set h.next b) ∧
      GridOK C ((h.alloc (byteSizeOf C.L e)).2.set h.next b) g ⟨d, ext, Spec.dfltCells C.L dv⟩ := by
  have hd := selectSizes_fits hs
  obtain ⟨b', k1, k2, k3⟩ := (Marks.constructFunctor hL hd (c := fun _ _ _ => none)
    (w := gridCont d e (Spec.dfltCells C.L dv))
    (fun r m k i hm hk hi => by
      rw [gridCont_in hd hi]
      simp only [Spec.dfltCells, dfltCell, hm])
    (fun _ _ _ _ _ _ _ _ => rfl)).run (View.fresh C.L e.prod)
  refine ⟨b', ?_, ?_⟩
  · simp only [Grid.init, Grid.callbackMut, onBuffer, hdim, hs, hdata, Heap.alloc, byteSizeOf_eq, if_true, k1]
  · refine ⟨hdim, e, h.next, b', hs, hdata, by simp, ?_, hbs, ?_, hext⟩
    · rw [k2.1]; rfl
    · refine k3.congr (fun r m k i hm hk hi => ?_)
      by_cases hb : InBox d e i
      · rw [mark_pos ⟨hb, m, hm, hk⟩]
      · rw [mark_neg (fun h => hb h.1), gridCont_out hd hb]

/-- Result of (re)allocating: heap `h'` differs from `h` by the new buffer `h.next` and by the released one. -/
structure Realloc (h h' : Heap V) (old : Option Nat) : Prop where
  next : h'.next = h.next + 1
  gone : ∀ i, old = some i → i ≠ h.next → h'.blk i = none
  kept : ∀ i, old ≠ some i → i ≠ h.next → h'.blk i = h.blk i
  clean : (∀ b ∈ h.freed, Clean b) → ∀ b ∈ h'.freed, Clean b

theorem resize_blank (hL : C.L.WF) {h : Heap V} {g : Grid} (hdata : g.data = none) {d e : Ext}
    (hne : g.dim ≠ d) (hs : selectSizes C.tr d = .ok e) (dv : V) :
    ∃ g' h', g.resize C d h = .ok () (g', h') ∧ GridOK C h' g' ⟨d, some e, Spec.dfltCells C.L dv⟩ ∧
      g'.data = some h.next ∧ Realloc h h' none := by
  have hne' : ¬ (g.dim.x = d.x ∧ g.dim.y = d.y ∧ g.dim.z = d.z) := by
    rintro ⟨a, b, c⟩; exact hne (by cases hg : g.dim; cases d; simp_all)
  let g2 : Grid := { g with dim := d, ex := some e.x, ey := some e.y, ez := some e.z, bs := some (byteSizeOf C.L e),
                            data := some h.next }
  obtain ⟨b, k1, k2⟩ := grid_init (h := h) hL hs dv g2 rfl rfl rfl (some e)
    (fun e' he => by cases he; exact ⟨rfl, rfl, rfl, rfl⟩)
  refine ⟨g2, _, ?_, k2, rfl, ⟨rfl, fun i hi => (nomatch hi), fun i _ hi => ?_, fun h => h⟩⟩
  · unfold Grid.resize
    rw [if_neg hne']
    simp only [Grid.destroyAndDeallocate, hdata, Res.withGrid, Res.bind, hs]
    have : (h.alloc (byteSizeOf C.L e)).1 = h.next := rfl
    simp only [this]
    show Res.withGrid g2 (g2.init C _) = _
    rw [k1]; rfl
  · rw [Heap.blk_set_ne _ _ hi]; simp [Heap.alloc, hi]

theorem GridOK.resize (hL : C.L.WF) {h : Heap V} {g : Grid} {a : AGrid V} (hg : GridOK C h g a) {d e : Ext}
    (hne : a.dim ≠ d) (hs : selectSizes C.tr d = .ok e) (dv : V) :
    ∃ g' h', g.resize C d h = .ok () (g', h') ∧ GridOK C h' g' ⟨d, some e, Spec.dfltCells C.L dv⟩ ∧
      g'.data = some h.next ∧ Realloc h h' g.data := by
  have hne' : ¬ (g.dim.x = d.x ∧ g.dim.y = d.y ∧ g.dim.z = d.z) := by
    rintro ⟨a1, b1, c1⟩; exact hne (by rw [← hg.1]; cases hg' : g.dim; cases d; simp_all)
  obtain ⟨id, h1, hid, q1, q2, q3, q4, bc, q5, q6⟩ := hg.destroy hL
  let g2 : Grid := { g with dim := d, ex := some e.x, ey := some e.y, ez := some e.z, bs := some (byteSizeOf C.L e),
                            data := some h1.next }
  obtain ⟨b, k1, k2⟩ := grid_init (h := h1) hL hs dv g2 rfl rfl rfl (some e)
    (fun e' he => by cases he; exact ⟨rfl, rfl, rfl, rfl⟩)
  refine ⟨g2, _, ?_, k2, by rw [← q2], ⟨?_, fun i hi hi' => ?_, fun i hi hi' => ?_, fun hc b' hb' => ?_⟩⟩
  · unfold Grid.resize
    rw [if_neg hne']
    simp only [q1, Res.withGrid, Res.bind, hs]
    have : (h1.alloc (byteSizeOf C.L e)).1 = h1.next := rfl
    simp only [this]
    show Res.withGrid g2 (g2.init C _) = _
    rw [k1]; rfl
  · show h1.next + 1 = _
    rw [q2]
  · rw [hid] at hi; cases hi
    rw [Heap.blk_set_ne _ _ (by rw [q2]; exact hi')]
    simp only [Heap.alloc]
    rw [if_neg (by rw [q2]; exact hi')]
    exact q3
  · rw [Heap.blk_set_ne _ _ (by rw [q2]; exact hi')]
    simp only [Heap.alloc]
    rw [if_neg (by rw [q2]; exact hi')]
    exact q4 i (fun he => hi (by rw [hid, he]))
  · have : b' ∈ h1.freed := hb'
    rw [q6] at this
    rcases List.mem_append.1 this with h | h
    · exact hc b' h
    · rw [List.mem_singleton.1 h]; exact q5

theorem resize_same {h : Heap V} {g : Grid} {d : Ext} (he : g.dim = d) : g.resize C d h = .ok () (g, h) := by
  unfold Grid.resize
  rw [if_pos (by rw [he]; exact ⟨rfl, rfl, rfl⟩)]

/-- `copy_in`, for two grids of the same dimensions; `other` may be the same grid. -/
theorem GridOK.copyIn (hL : C.L.WF) {h : Heap V} {g other : Grid} {a o : AGrid V} (hg : GridOK C h g a)
    (ho : GridOK C h other o) (hdim : a.dim = o.dim) (hsame : g.data = other.data → a.cells = o.cells) :
    ∃ id b', g.data = some id ∧ g.copyIn C other h = .ok () (g, h.set id b') ∧
      GridOK C (h.set id b') g { a with cells := o.cells } := by
  have hg' := hg
  have ho' := ho
  obtain ⟨h1, e, id, b, h2, h3, h4, h5, h6, h7, h8⟩ := hg
  obtain ⟨o1, e', id', b', o2, o3, o4, o5, o6, o7, o8⟩ := ho
  rw [← hdim, h2] at o2
  cases o2
  have hd := selectSizes_fits h2
  let src := srcBlock h other.data g.data
  have hm : Marks C.L e.prod (gridCont a.dim e a.cells) (gridCont a.dim e o.cells)
      (copyFunctor C.L a.dim e e src) (BoxKeys C.L a.dim e) := by
    refine Marks.copyFunctor hL hd (cs := gridCont a.dim e o.cells) (fun bb S hbb => ?_) (fun r m k i _ _ hi => ?_)
      (fun r m k i _ _ hi _ => by rw [gridCont_in hd hi]; rfl)
    · by_cases heq : other.data = g.data
      · have e1 : src = fun b => b := by
          funext b
          simp only [src, srcBlock]
          rw [if_pos ⟨by rw [o3]; rfl, heq⟩]; rfl
        rw [e1]
        rw [hsame heq.symm] at hbb
        have : mark (gridCont a.dim e o.cells) (gridCont a.dim e o.cells) S = gridCont a.dim e o.cells := by
          funext r k i; simp [mark]
        rw [this] at hbb
        exact hbb.reads
      · have e1 : src = fun _ => b' := by
          funext b
          simp only [src, srcBlock]
          rw [if_neg (fun h => heq h.2), o3]
          simp [o4]
        rw [e1, hdim]
        exact o7.reads
    · exact ⟨_, gridCont_in hd hi, gridCont_in hd hi⟩
  obtain ⟨id2, b2, k1, k2, k3⟩ := hg'.callbackMut (a' := { a with cells := o.cells })
    (fun et => copyFunctor C.L a.dim e et src) rfl rfl (fun e2 bb hs2 hv => by
      rw [h2] at hs2; cases hs2
      obtain ⟨b3, j1, j2, j3⟩ := hm.run hv
      refine ⟨b3, j1, j2, j3.congr (fun r m k i hm hk _ => ?_)⟩
      by_cases hb : InBox a.dim e i
      · rw [mark_pos ⟨hb, m, hm, hk⟩]
      · rw [mark_neg (fun h => hb h.1), gridCont_out hd hb, gridCont_out hd hb])
  refine ⟨id2, b2, k1, ?_, k3⟩
  have hdims : other.dim = g.dim := by rw [o1, h1, hdim]
  have k4 : onBuffer g.data (copyFunctor C.L a.dim e e src) h = .ok () (h.set id2 b2) := by
    simpa only [Grid.callbackMut, h1, h2] using k2
  unfold Grid.copyIn Grid.dualCallback
  rw [hdims, h1, h2]
  simp only [o3, Option.map_some, o4, ne_eq, not_true_eq_false, or_self, if_false]
  have k5 : onBuffer g.data (copyFunctor C.L a.dim e e (srcBlock h (some id') g.data)) h = .ok () (h.set id2 b2) := by
    rw [← o3]; exact k4
  rw [k5]
  cases C.asym <;> rfl

end
end LFA
