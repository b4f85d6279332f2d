import Verif.Sizes

/-
  The functors through which soa_grid manipulates its buffer (detail/*_functor.hpp), host versions.
-/
set_option linter.unusedSectionVars false
namespace LFA

/-- A loop which increments `accessor.index()` at the end of each of its `n` iterations, starting from `idx`
    (e.g. detail/construct_functor.hpp:43-48, detail/set_instance_functor.hpp:57-64). -/
def walk {σ : Type} (n : Nat) (idx : Int) (f : Nat → Int → σ → Except UB σ) (s : σ) : Except UB σ :=
  (loopM n (fun i (p : Int × σ) => (f i p.1 p.2).map (fun s' => (p.1 + 1, s'))) (idx, s)).map Prod.snd

/-- Accessor created by `LIBFLATARRAY_CASE_DIM_*` (detail/macros.hpp:332-333) with `index()` set to `i`. -/
def accAt (e : Ext) (i : Int) : Acc := ⟨e, 0, i⟩

/-- `detail::flat_array::simple_streak` (detail/simple_streak.hpp:24-41); any streak type has this interface. -/
structure Streak where
  x : Nat
  y : Nat
  z : Nat
  len : Nat

section
variable {V : Type} [DecidableEq V]

/-- `construct_functor::operator()` (detail/construct_functor.hpp:38-51). -/
def constructFunctor (L : Layout V) (d e : Ext) : Block V → Except UB (Block V) :=
  loopM d.z fun z => loopM d.y fun y b =>
    walk d.x (genIndex e 0 y z) (fun _ idx b => (accAt e idx).constructMembers L b) b

/-- `destroy_functor::operator()` (detail/destroy_functor.hpp:39-52). -/
def destroyFunctor (L : Layout V) (d e : Ext) : Block V → Except UB (Block V) :=
  loopM d.z fun z => loopM d.y fun y b =>
    walk d.x (genIndex e 0 y z) (fun _ idx b => (accAt e idx).destroyMembers L b) b

/-- `copy_functor::operator()` (detail/copy_functor.hpp:36-46): `es` are the extents of the source accessor `ACCESSOR1`
    (whose `gen_index` is used for both), `et` those of the target accessor. -/
def copyFunctor (L : Layout V) (d es et : Ext) (src : Block V → Block V) : Block V → Except UB (Block V) :=
  loopM d.z fun z => loopM d.y fun y b =>
    (accAt et (genIndex es 0 y z)).copyMembers L (accAt es (genIndex es 0 y z)) src d.x b

/-- `set_instance_functor<CELL, SOURCE_STRIDE>::operator()` (detail/set_instance_functor.hpp:54-65). The source array is
    `cells`; reading behind its end is UB. -/
def setFunctor (L : Layout V) (e : Ext) (stride : Nat) (cells : List (Cell V)) (x y z count : Nat) :
    Block V → Except UB (Block V) :=
  walk count (genIndex e x y z) fun i idx b =>
    match cells[i * stride]? with
    | none => .error .oob
    | some cell => (accAt e idx).setCell L cell b

/-- `get_instance_functor::operator()` (detail/get_instance_functor.hpp:54-66). `target` is the array to be overwritten. -/
def getFunctor (L : Layout V) (e : Ext) (b : Block V) (x y z count : Nat) :
    List (Cell V) → Except UB (List (Cell V)) :=
  walk count (genIndex e x y z) fun i idx target =>
    match target[i]? with
    | none => .error .oob
    | some cell => ((accAt e idx).getCell L b cell).map fun cell' => target.set i cell'

/-- `load_functor::operator()` (detail/load_functor.hpp:46-64). The loop state is (`offset`, buffer). -/
def loadFunctor (L : Layout V) (e : Ext) (src : Block V) (count : Nat) :
    List Streak → Nat → Block V → Except UB (Block V)
  | [], _, b => .ok b
  | s :: ss, off, b =>
    ((accAt e (genIndex e s.x s.y s.z)).loadRaw L (fun _ => src) s.len off count b).bind
      (loadFunctor L e src count ss (off + s.len))

/-- `save_functor::operator()` (detail/save_functor.hpp:41-59). -/
def saveFunctor (L : Layout V) (e : Ext) (b : Block V) (count : Nat) :
    List Streak → Nat → Block V → Except UB (Block V)
  | [], _, tgt => .ok tgt
  | s :: ss, off, tgt =>
    ((accAt e (genIndex e s.x s.y s.z)).saveRaw L b s.len off count tgt).bind
      (saveFunctor L e b count ss (off + s.len))

/-- `set_byte_size_functor::operator()` (detail/set_byte_size_functor.hpp:38-58): the byte size of a grid. -/
def byteSizeOf (L : Layout V) (e : Ext) : Nat := aggSize L * e.x * e.y * e.z

end

/-! ### Linear cell index -/

/-- Linear index of a cell as natural number. -/
def lin (e : Ext) (x y z : Nat) : Nat := z * e.x * e.y + y * e.x + x

theorem genIndex_lin (e : Ext) (x y z : Nat) : genIndex e x y z = (lin e x y z : Nat) := by
  unfold genIndex lin; push_cast; ring

theorem lin_eq (e : Ext) (x y z : Nat) : lin e x y z = (z * e.y + y) * e.x + x := by
  unfold lin; ring

theorem lin_lt {e : Ext} {x y z : Nat} (hx : x < e.x) (hy : y < e.y) (hz : z < e.z) : lin e x y z < e.prod := by
  rw [lin_eq]
  have h1 : z * e.y + y + 1 ≤ e.z * e.y := by
    have := Nat.mul_le_mul_right e.y (show z + 1 ≤ e.z from hz)
    rw [Nat.succ_mul] at this; omega
  have h2 := Nat.mul_le_mul_right e.x h1
  rw [Nat.succ_mul] at h2
  have h3 : e.z * e.y * e.x = e.prod := by unfold Ext.prod; ring
  omega

/-- Decoding a linear index. -/
def unX (e : Ext) (i : Nat) : Nat := i % e.x
def unY (e : Ext) (i : Nat) : Nat := i / e.x % e.y
def unZ (e : Ext) (i : Nat) : Nat := i / e.x / e.y

theorem unX_lin {e : Ext} {x y z : Nat} (hx : x < e.x) : unX e (lin e x y z) = x := by
  unfold unX; rw [lin_eq, Nat.mul_comm, Nat.mul_add_mod, Nat.mod_eq_of_lt hx]

theorem lin_div {e : Ext} {x y z : Nat} (hx : x < e.x) : lin e x y z / e.x = z * e.y + y := by
  rw [lin_eq, Nat.mul_comm, Nat.mul_add_div (by omega), Nat.div_eq_of_lt hx, Nat.add_zero]

theorem unY_lin {e : Ext} {x y z : Nat} (hx : x < e.x) (hy : y < e.y) : unY e (lin e x y z) = y := by
  unfold unY
  rw [lin_div hx, Nat.mul_comm, Nat.mul_add_mod, Nat.mod_eq_of_lt hy]

theorem unZ_lin {e : Ext} {x y z : Nat} (hx : x < e.x) (hy : y < e.y) : unZ e (lin e x y z) = z := by
  unfold unZ
  rw [lin_div hx, Nat.mul_comm, Nat.mul_add_div (by omega), Nat.div_eq_of_lt hy, Nat.add_zero]

theorem lin_inj {e : Ext} {x y z x' y' z' : Nat} (hx : x < e.x) (hy : y < e.y) (hx' : x' < e.x) (hy' : y' < e.y)
    (h : lin e x y z = lin e x' y' z') : x = x' ∧ y = y' ∧ z = z' := by
  refine ⟨?_, ?_, ?_⟩
  · rw [← unX_lin (e := e) (y := y) (z := z) hx, h, unX_lin hx']
  · rw [← unY_lin (e := e) (z := z) hx hy, h, unY_lin hx' hy']
  · have h1 := unZ_lin (e := e) (z := z) hx hy
    rw [h, unZ_lin hx' hy'] at h1
    exact h1.symm

theorem lin_un {e : Ext} (i : Nat) : lin e (unX e i) (unY e i) (unZ e i) = i := by
  rw [lin_eq]
  unfold unX unY unZ
  rw [Nat.mul_comm (i / e.x / e.y) e.y, Nat.div_add_mod, Nat.mul_comm, Nat.div_add_mod]

theorem lin_succ (e : Ext) (x j y z : Nat) : lin e (x + j) y z = lin e x y z + j := by
  unfold lin; omega

theorem lin_zero (e : Ext) (x y z : Nat) : lin e x y z = lin e 0 y z + x := by
  unfold lin; omega

/-! ### walk -/

theorem walk_eq {σ : Type} (n : Nat) (idx : Int) (f : Nat → Int → σ → Except UB σ) (s : σ) :
    walk n idx f s = loopM n (fun i s => f i (idx + i) s) s := by
  have key : loopM n (fun i (p : Int × σ) => (f i p.1 p.2).map (fun s' => (p.1 + 1, s'))) (idx, s) =
      (loopM n (fun i s => f i (idx + i) s) s).map (fun s => (idx + n, s)) := by
    induction n with
    | zero => simp [loopM, Except.map]
    | succ n ih =>
      rw [loopM_succ, loopM_succ, ih]
      cases loopM n (fun i s => f i (idx + i) s) s with
      | error u => rfl
      | ok s1 =>
        show (f n (idx + n) s1).map _ = (f n (idx + n) s1).map _
        congr 1
        funext s'
        simp only [Prod.mk.injEq, and_true]
        push_cast; ring
  unfold walk
  rw [key]
  cases loopM n (fun i s => f i (idx + i) s) s <;> rfl

/-- The struct value `t`, with all registered members taken from `c`. -/
def overlay {V : Type} (L : Layout V) (c t : Cell V) : Cell V := fun r k =>
  match L[r]? with
  | some m => if k < m.elems then c r k else t r k
  | none => t r k

/-! ### Effects of the functors -/
section
variable {V : Type} [DecidableEq V] {L : Layout V}

theorem accAt_At (e : Ext) (i : Nat) : (accAt e (i : Int)).At i := by
  simp [accAt, Acc.At]

theorem walk_index (e : Ext) (x y z j : Nat) : genIndex e x y z + (j : Int) = ((lin e x y z + j : Nat) : Int) := by
  rw [genIndex_lin]; push_cast; ring

/-- Struct number `i` is a cell inside of the box of dimensions `d`. -/
def InBox (d e : Ext) (i : Nat) : Prop := ∃ x y z, x < d.x ∧ y < d.y ∧ z < d.z ∧ i = lin e x y z

/-- Keys of all cells of the box. -/
def BoxKeys (L : Layout V) (d e : Ext) : Nat → Nat → Nat → Prop :=
  fun r k i => InBox d e i ∧ ∃ m, L[r]? = some m ∧ k < m.elems

/-- Loop over all rows of a grid. -/
theorem Marks.rows {c w : Cont V} {d e : Ext} (hd : d.Fits e)
    {row : Nat → Nat → Block V → Except UB (Block V)}
    (hrow : ∀ y z, y < d.y → z < d.z → Marks L e.prod c w (row y z) (RowKeys L (lin e 0 y z) d.x)) :
    Marks L e.prod c w (loopM d.z fun z => loopM d.y fun y b => row y z b) (BoxKeys L d e) := by
  obtain ⟨hdx, hdy, hdz⟩ := hd
  -- a key in row (y,z) determines x, y, z
  have dec : ∀ {y z r k i}, y < d.y → RowKeys L (lin e 0 y z) d.x r k i →
      unY e i = y ∧ unZ e i = z := by
    rintro y z r k i hy ⟨⟨h1, h2⟩, _⟩
    have e1 : i = lin e (i - lin e 0 y z) y z := by rw [lin_zero]; omega
    rw [e1]
    exact ⟨unY_lin (by omega) (by omega), unZ_lin (by omega) (by omega)⟩
  refine (Marks.loop (D := fun z r k i => ∃ y, y < d.y ∧ RowKeys L (lin e 0 y z) d.x r k i) (fun z hz => ?_) ?_).congrD ?_
  · refine Marks.loop (D := fun y r k i => RowKeys L (lin e 0 y z) d.x r k i) (fun y hy => hrow y z hy hz) ?_
    intro y y' r k i hlt hy' h1 h2
    have a := (dec (by omega) h1).1
    have b := (dec hy' h2).1
    omega
  · rintro z z' r k i hlt hz' ⟨y, hy, h1⟩ ⟨y', hy', h2⟩
    have a := (dec hy h1).2
    have b := (dec hy' h2).2
    omega
  · intro r k i
    constructor
    · rintro ⟨z, hz, y, hy, ⟨h1, h2⟩, hv⟩
      exact ⟨⟨i - lin e 0 y z, y, z, by omega, hy, hz, by rw [lin_zero]; omega⟩, hv⟩
    · rintro ⟨⟨x, y, z, hx, hy, hz, rfl⟩, hv⟩
      refine ⟨z, hz, y, hy, ?_, hv⟩
      rw [lin_zero e x]; omega

/-- A loop over consecutive cells. -/
theorem Marks.walkCells {P : Nat} {c w : Cont V} {n i0 : Nat} {idx : Int} (hidx : idx = (i0 : Nat))
    {f : Nat → Int → Block V → Except UB (Block V)}
    (hf : ∀ j, j < n → Marks L P c w (f j ((i0 + j : Nat) : Int)) (CellKeys L (i0 + j))) :
    Marks L P c w (walk n idx f) (RowKeys L i0 n) := by
  refine ((Marks.loop (f := fun i b => f i (idx + i) b) (D := fun j => CellKeys L (i0 + j)) (fun j hj => ?_) ?_).congrF
    (fun b => walk_eq n idx f b)).congrD (fun r k i => ?_)
  · have : idx + (j : Int) = ((i0 + j : Nat) : Int) := by rw [hidx]; push_cast; rfl
    rw [this]
    exact hf j hj
  · rintro j j' r k i hlt _ ⟨h1, _⟩ ⟨h2, _⟩; omega
  · constructor
    · rintro ⟨j, hj, h, hv⟩; exact ⟨by omega, hv⟩
    · rintro ⟨h, hv⟩; exact ⟨i - i0, by omega, by omega, hv⟩

theorem row_in_prod {d e : Ext} (hd : d.Fits e) {y z : Nat} (hy : y < d.y) (hz : z < d.z) {x : Nat} (hx : x < d.x) :
    lin e 0 y z + x < e.prod := by
  rw [← lin_zero]
  exact lin_lt (Nat.lt_of_lt_of_le hx hd.1) (Nat.lt_of_lt_of_le hy hd.2.1) (Nat.lt_of_lt_of_le hz hd.2.2)

theorem Marks.constructFunctor (hL : L.WF) {d e : Ext} (hd : d.Fits e) {c w : Cont V}
    (hw : ∀ r m k i, L[r]? = some m → k < m.elems → InBox d e i → w r k i = some m.dflt)
    (hlive : ∀ r m k i, L[r]? = some m → k < m.elems → InBox d e i → m.ty.triv = false → c r k i = none) :
    Marks L e.prod c w (constructFunctor L d e) (BoxKeys L d e) := by
  refine Marks.rows hd (fun y z hy hz => Marks.walkCells (genIndex_lin e 0 y z) (fun j hj => ?_))
  have hbox : InBox d e (lin e 0 y z + j) := ⟨j, y, z, hj, hy, hz, (lin_zero e j y z).symm⟩
  exact Marks.constructMembers (A := accAt e ((lin e 0 y z + j : Nat) : Int)) hL (accAt_At e _)
    (row_in_prod hd hy hz hj) (fun r m k hm hk => hw r m k _ hm hk hbox) (fun r m k hm hk => hlive r m k _ hm hk hbox)

theorem Marks.destroyFunctor (hL : L.WF) {d e : Ext} (hd : d.Fits e) {c w : Cont V}
    (hw : ∀ r m k i, L[r]? = some m → k < m.elems → InBox d e i → w r k i = none)
    (hlive : ∀ r m k i, L[r]? = some m → k < m.elems → InBox d e i → m.ty.triv = false → (c r k i).isSome) :
    Marks L e.prod c w (destroyFunctor L d e) (BoxKeys L d e) := by
  refine Marks.rows hd (fun y z hy hz => Marks.walkCells (genIndex_lin e 0 y z) (fun j hj => ?_))
  have hbox : InBox d e (lin e 0 y z + j) := ⟨j, y, z, hj, hy, hz, (lin_zero e j y z).symm⟩
  exact Marks.destroyMembers (A := accAt e ((lin e 0 y z + j : Nat) : Int)) hL (accAt_At e _)
    (row_in_prod hd hy hz hj) (fun r m k hm hk => hw r m k _ hm hk hbox) (fun r m k hm hk => hlive r m k _ hm hk hbox)

theorem row_end_in_prod {d e : Ext} (hd : d.Fits e) {y z : Nat} (hy : y < d.y) (hz : z < d.z) :
    lin e 0 y z + d.x ≤ e.prod := by
  have h1 := lin_eq e 0 y z
  have h2 : (z * e.y + y) + 1 ≤ e.z * e.y := by
    have := Nat.mul_le_mul_right e.y (show z + 1 ≤ e.z from Nat.lt_of_lt_of_le hz hd.2.2)
    rw [Nat.succ_mul] at this
    have := hd.2.1
    omega
  have h3 := Nat.mul_le_mul_right e.x h2
  rw [Nat.succ_mul] at h3
  have h4 : e.z * e.y * e.x = e.prod := by unfold Ext.prod; ring
  have := hd.1
  omega

theorem Marks.copyFunctor (hL : L.WF) {d e : Ext} (hd : d.Fits e) {c w cs : Cont V} {src : Block V → Block V}
    (hsrc : ∀ b S, View L e.prod b (mark c w S) → Reads L e.prod (src b) cs)
    (hw : ∀ r m k i, L[r]? = some m → k < m.elems → InBox d e i → ∃ v, cs r k i = some v ∧ w r k i = some v)
    (hlive : ∀ r m k i, L[r]? = some m → k < m.elems → InBox d e i → m.ty.triv = false → (c r k i).isSome) :
    Marks L e.prod c w (copyFunctor L d e e src) (BoxKeys L d e) := by
  refine Marks.rows hd (fun y z hy hz => ?_)
  have hbox : ∀ j, j < d.x → InBox d e (lin e 0 y z + j) := fun j hj => ⟨j, y, z, hj, hy, hz, (lin_zero e j y z).symm⟩
  have hAt : (accAt e (genIndex e 0 y z)).At (lin e 0 y z) := by
    have := genIndex_lin e 0 y z
    simp only [Nat.cast_zero] at this
    rw [this]; exact accAt_At e _
  refine Marks.copyMembers (A := accAt e (genIndex e 0 y z)) (O := accAt e (genIndex e 0 y z)) hL hAt hAt
    (row_end_in_prod hd hy hz) (row_end_in_prod hd hy hz) hsrc
    (fun r m k j hm hk hj => hw r m k _ hm hk (hbox j hj)) (fun r m k j hm hk hj => hlive r m k _ hm hk (hbox j hj))

theorem Marks.setFunctor (hL : L.WF) {e : Ext} {stride : Nat} {cells : List (Cell V)} {x y z count : Nat}
    (hin : lin e x y z + count ≤ e.prod) {src : Nat → Cell V} (hsrc : ∀ j, j < count → cells[j * stride]? = some (src j))
    {c w : Cont V}
    (hw : ∀ r m k j, L[r]? = some m → k < m.elems → j < count → w r k (lin e x y z + j) = some (src j r k))
    (hlive : ∀ r m k j, L[r]? = some m → k < m.elems → j < count → m.ty.triv = false →
      (c r k (lin e x y z + j)).isSome) :
    Marks L e.prod c w (setFunctor L e stride cells x y z count) (RowKeys L (lin e x y z) count) := by
  refine Marks.walkCells (genIndex_lin e x y z) (fun j hj => ?_)
  simp only [hsrc j hj]
  exact Marks.setCell (A := accAt e ((lin e x y z + j : Nat) : Int)) hL (accAt_At e _) (show _ < e.prod by omega)
    (fun r m k hm hk => hw r m k j hm hk hj) (fun r m k hm hk => hlive r m k j hm hk hj)

/-- Bulk get: the target array receives the stored structs, in order. -/
theorem getFunctor_ok (hL : L.WF) {e : Ext} {x y z count : Nat} (hin : lin e x y z + count ≤ e.prod)
    {c : Cont V} {b : Block V} (hb : View L e.prod b c) {val : Nat → Cell V}
    (hv : ∀ r m k j, L[r]? = some m → k < m.elems → j < count → c r k (lin e x y z + j) = some (val j r k))
    (target : List (Cell V)) (ht : count ≤ target.length) :
    ∃ out, getFunctor L e b x y z count target = .ok out ∧ out.length = target.length ∧
      (∀ j, j < count → out[j]? = (target[j]?).map (fun t => overlay L (val j) t)) ∧
      (∀ j, count ≤ j → out[j]? = target[j]?) := by
  unfold getFunctor
  rw [walk_eq]
  have := loopM_inv (fun n (out : List (Cell V)) => out.length = target.length ∧
      (∀ j, j < n → out[j]? = (target[j]?).map (fun t => overlay L (val j) t)) ∧
      (∀ j, n ≤ j → out[j]? = target[j]?)) count
    (fun i target => match target[i]? with
      | none => .error .oob
      | some cell => ((accAt e (genIndex e x y z + i)).getCell L b cell).map fun cell' => target.set i cell')
    target ⟨rfl, fun j h => by omega, fun _ _ => rfl⟩ ?_
  · exact this
  · intro n hn out ⟨h1, h2, h3⟩
    have hlen : n < out.length := by omega
    have he : out[n]? = some out[n] := List.getElem?_eq_getElem hlen
    rw [walk_index]
    obtain ⟨cell', g1, g2, g3⟩ := getCell_ok (A := accAt e ((lin e x y z + n : Nat) : Int)) hL (accAt_At e _)
      (show _ < e.prod by omega) (show View L (accAt e _).ext.prod b c from hb) (val := val n)
      (fun r m k hm hk => hv r m k n hm hk hn) out[n]
    simp only [he, g1]
    refine ⟨_, rfl, by simp [h1], ?_, ?_⟩
    · intro j hj
      by_cases hjn : j = n
      · subst hjn
        rw [← h3 j (by omega), he]
        simp only [hlen, List.getElem?_set_self, Option.map_some]
        congr 1
        funext r k
        unfold overlay
        cases hm : L[r]? with
        | none => exact g3 r k (fun m h => by rw [hm] at h; cases h)
        | some m =>
          by_cases hk : k < m.elems
          · simp only [hk, if_true]; exact g2 r m k hm hk
          · simp only [hk, if_false]
            exact g3 r k (fun m' h => by rw [hm] at h; cases h; exact hk)
      · rw [List.getElem?_set_ne (by omega)]
        exact h2 j (by omega)
    · intro j hj
      rw [List.getElem?_set_ne (by omega)]
      exact h3 j (by omega)

end
end LFA
