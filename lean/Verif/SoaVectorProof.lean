import Verif.SoaVector
import Verif.GridRefine

/-
  Refinement proof: the model of soa_vector implements the specification `VecSpec`.
-/
set_option linter.unusedSectionVars false
namespace LFA

/-! ### Growth -/

theorem roundDouble_lower (p : Nat) : p * 9007199254740991 ≤ roundDouble p * 9007199254740992 := by
  unfold roundDouble
  dsimp only
  generalize hs : p.log2 + 1 - 53 = s
  have hlt := Nat.mod_lt p (Nat.pow_pos (n := s) (show 0 < 2 by omega))
  have hp : p = p / 2 ^ s * 2 ^ s + p % 2 ^ s := (Nat.div_add_mod' p (2 ^ s)).symm
  generalize p / 2 ^ s = q at *
  generalize p % 2 ^ s = r at *
  split
  · rw [Nat.succ_mul]
    generalize q * 2 ^ s = t at *
    generalize 2 ^ s = u at *
    omega
  · rename_i hn
    have hr2 : 2 * r ≤ 2 ^ s := by
      by_contra hc; exact hn (.inl (Nat.lt_of_not_le hc))
    by_cases h0 : s = 0
    · subst h0
      simp only [Nat.pow_zero, Nat.mul_one] at *
      omega
    · have hp0 : p ≠ 0 := by
        rintro rfl
        simp at hs; omega
      have hge := (Nat.le_log2 (k := p.log2) hp0).1 (Nat.le_refl _)
      have hl : p.log2 = s + 52 := by omega
      rw [hl, Nat.pow_add, show 2 ^ 52 = 4503599627370496 from by norm_num] at hge
      clear hl hs hn hlt h0 hp0
      have h2 := Nat.le_trans (Nat.mul_le_mul_right 4503599627370496 hr2) hge
      generalize q * 2 ^ s = t at hp ⊢
      clear hr2 hge
      subst hp
      rw [Nat.add_mul] at *
      have h3 : r * 9007199254740992 ≤ t + r := by rw [Nat.mul_comm 2 r, Nat.mul_assoc] at h2; exact h2
      clear h2 q s
      have h4 : r * 9007199254740991 ≤ t := Nat.le_of_add_le_add_right (b := r) h3
      exact Nat.add_le_add_left h4 (t * 9007199254740991)

/-- Numbers of less than 54 bits are doubles. -/
theorem roundDouble_small {p : Nat} (hp : p < 2 ^ 53) : roundDouble p = p := by
  unfold roundDouble
  have : p.log2 + 1 - 53 = 0 := by
    by_cases h0 : p = 0
    · subst h0; decide
    · have := (Nat.log2_lt h0).2 hp; omega
  rw [this]
  simp [Nat.mod_one]

/-- `size_t(count * 1.2)` exceeds `count`, from five elements on. -/
theorem grow_gt {n : Nat} (h5 : 5 ≤ n) (hn : n < 2 ^ 53) : n < grow n := by
  by_cases h6 : n = 5
  · subst h6; decide
  · unfold grow
    rw [roundDouble_small hn]
    have h := roundDouble_lower (n * 5404319552844595)
    generalize roundDouble (n * 5404319552844595) = R at *
    omega

example : grow 32 = 38 ∧ grow 4 = 4 ∧ grow 5 = 6 := by decide

/-! ### One-dimensional sizes -/

/-- The registered struct selects one-dimensional extents for one-dimensional grids. -/
def OneD (tr : Traits) : Prop := ∀ n e, selectSizes tr ⟨n, 1, 1⟩ = .ok e → e.y = 1 ∧ e.z = 1

theorem OneD.dflt : OneD .dflt := by
  intro n e h
  simp only [selectSizes, selectUniform1] at h
  split at h
  · rename_i hc; simp at hc
  · split at h
    · rename_i hc; simp at hc
    · cases hf : firstFit n sizes1D with
      | none => simp [hf] at h
      | some s => simp [hf] at h; cases h; exact ⟨rfl, rfl⟩

theorem OneD.uniform1 (l : List Nat) : OneD (.uniform1 l) := by
  intro n e h
  simp only [selectSizes, selectUniform1] at h
  cases hf : firstFit n l with
  | none => simp [hf] at h
  | some s => simp [hf] at h; cases h; exact ⟨rfl, rfl⟩

theorem firstFit_idem {n s : Nat} {l : List Nat} (h : firstFit n l = some s) : firstFit s l = some s := by
  induction l with
  | nil => cases h
  | cons a l ih =>
    simp only [firstFit] at h ⊢
    split at h
    · cases h; simp
    · rename_i hc
      have hle := firstFit_le h
      by_cases hs : s ≤ a
      · omega
      · rw [if_neg hs]; exact ih h

/-- An extent selects itself. -/
theorem OneD.idem {tr : Traits} (h1 : OneD tr) {n : Nat} {e : Ext} (h : selectSizes tr ⟨n, 1, 1⟩ = .ok e) :
    selectSizes tr ⟨e.x, 1, 1⟩ = .ok e := by
  obtain ⟨hy, hz⟩ := h1 n e h
  obtain ⟨ex, ey, ez⟩ := e
  simp only at hy hz
  subst hy hz
  cases tr with
  | dflt =>
    simp only [selectSizes, selectUniform1] at h ⊢
    simp at h ⊢
    cases hf : firstFit n sizes1D with
    | none => simp [hf] at h
    | some s => simp [hf] at h; subst h; rw [firstFit_idem hf]
  | custom xs ys zs =>
    simp only [selectSizes, selectCustom] at h ⊢
    cases hf : firstFit n xs with
    | none => simp [hf] at h
    | some s =>
      cases hf2 : firstFit 1 ys with
      | none => simp [hf, hf2] at h
      | some s2 =>
        cases hf3 : firstFit 1 zs with
        | none => simp [hf, hf2, hf3] at h
        | some s3 =>
          simp [hf, hf2, hf3] at h
          obtain ⟨rfl, rfl, rfl⟩ := h
          simp [firstFit_idem hf]
  | uniform1 l =>
    simp only [selectSizes, selectUniform1] at h ⊢
    simp at h ⊢
    cases hf : firstFit n l with
    | none => simp [hf] at h
    | some s => simp [hf] at h; subst h; rw [firstFit_idem hf]
  | uniform2 l =>
    simp only [selectSizes, selectUniform2] at h ⊢
    simp at h ⊢
    cases hf : firstFit (max n 1) l with
    | none => simp [hf] at h
    | some s =>
      simp [hf] at h; obtain ⟨rfl, rfl⟩ := h
      rw [show max 1 1 = 1 from rfl, firstFit_idem hf]
  | uniform3 l =>
    simp only [selectSizes, selectUniform3] at h ⊢
    rw [show max n (max 1 1) = max n 1 from rfl] at h
    cases hf : firstFit (max n 1) l with
    | none => simp [hf] at h
    | some s =>
      simp [hf] at h; obtain ⟨rfl, rfl⟩ := h
      rw [show max 1 (max 1 1) = 1 from rfl, firstFit_idem hf]

/-! ### One vector -/
section
variable {V : Type} [DecidableEq V] {C : Cfg V}

/-- Content of the buffer of a vector. -/
def vcont (cells : Nat → Option (Cell V)) : Cont V := fun r k i => (cells i).map fun c => c r k

theorem vcont_some {cells : Nat → Option (Cell V)} {i : Nat} {c : Cell V} (h : cells i = some c) (r k : Nat) :
    vcont cells r k i = some (c r k) := by simp [vcont, h]

theorem vcont_none {cells : Nat → Option (Cell V)} {i : Nat} (h : cells i = none) (r k : Nat) :
    vcont cells r k i = none := by simp [vcont, h]

theorem vcont_isSome {cells : Nat → Option (Cell V)} {i : Nat} (h : (cells i).isSome = true) (r k : Nat) :
    (vcont cells r k i).isSome = true := by
  cases hc : cells i with
  | none => simp [hc] at h
  | some c => simp [vcont, hc]

/-- A grid which is the storage of a vector. -/
structure VecOK (C : Cfg V) (h : Heap V) (g : Grid) (a : AVec V) : Prop where
  dim : g.dim = ⟨a.dim, 1, 1⟩
  sel : selectSizes C.tr ⟨a.dim, 1, 1⟩ = .ok ⟨a.ext, 1, 1⟩
  bs : g.bs = some (byteSizeOf C.L ⟨a.ext, 1, 1⟩)
  ex : a.known = true → g.ex = some a.ext
  live : ∀ i, i < a.dim → (a.cells i).isSome = true
  bnd : ∀ i, (a.cells i).isSome = true → i < a.ext
  nt : ArrSpec.trivial C.L = false → ∀ i, a.dim ≤ i → a.cells i = none
  buf : ∃ id b, g.data = some id ∧ h.blk id = some b ∧ b.size = aggSize C.L * a.ext ∧ View C.L a.ext b (vcont a.cells)

theorem prod1 (n : Nat) : (⟨n, 1, 1⟩ : Ext).prod = n := by simp [Ext.prod]
theorem lin1 (e x : Nat) : lin ⟨e, 1, 1⟩ x 0 0 = x := by simp [lin]

theorem VecOK.fits {h : Heap V} {g : Grid} {a : AVec V} (hg : VecOK C h g a) :
    (⟨a.dim, 1, 1⟩ : Ext).Fits ⟨a.ext, 1, 1⟩ := selectSizes_fits hg.sel

theorem VecOK.le {h : Heap V} {g : Grid} {a : AVec V} (hg : VecOK C h g a) : a.dim ≤ a.ext := hg.fits.1

theorem inBox1 {d e : Nat} (_ : d ≤ e) (i : Nat) : InBox ⟨d, 1, 1⟩ ⟨e, 1, 1⟩ i ↔ i < d := by
  constructor
  · rintro ⟨x, y, z, hx, hy, hz, rfl⟩
    simp only at hx hy hz
    have hy' : y = 0 := by omega
    have hz' : z = 0 := by omega
    subst hy' hz'
    rw [lin1]; exact hx
  · intro h
    exact ⟨i, 0, 0, h, by simp, by simp, (lin1 e i).symm⟩

theorem trivial_mem {L : Layout V} {r : Nat} {m : Member V} (hm : L[r]? = some m) (ht : m.ty.triv = false) :
    ArrSpec.trivial L = false := by
  unfold ArrSpec.trivial
  rw [List.all_eq_false]
  exact ⟨m, List.mem_of_getElem? hm, by simp [ht]⟩

theorem VecOK.frame {h h' : Heap V} {g : Grid} {a : AVec V} (hg : VecOK C h g a)
    (hf : ∀ id, g.data = some id → h'.blk id = h.blk id) : VecOK C h' g a := by
  obtain ⟨id, b, h1, h2, h3⟩ := hg.buf
  exact { hg with buf := ⟨id, b, h1, by rw [hf id h1]; exact h2, h3⟩ }

/-- The size is no property of the storage. -/
theorem VecOK.withN {h : Heap V} {g : Grid} {a : AVec V} (hg : VecOK C h g a) (n : Nat) : VecOK C h g { a with n := n } :=
  ⟨hg.dim, hg.sel, hg.bs, hg.ex, hg.live, hg.bnd, hg.nt, hg.buf⟩

theorem VecOK.weaken {h : Heap V} {g : Grid} {a : AVec V} (hg : VecOK C h g a) : VecOK C h g { a with known := false } :=
  ⟨hg.dim, hg.sel, hg.bs, fun h => (nomatch h), hg.live, hg.bnd, hg.nt, hg.buf⟩

/-- A freshly constructed grid. -/
theorem VecOK.ofGrid {h : Heap V} {g : Grid} {d e : Nat} {cells : Nat → Nat → Nat → Cell V} {ext : Option Ext}
    (hg : GridOK C h g ⟨⟨d, 1, 1⟩, ext, cells⟩) (hs : selectSizes C.tr ⟨d, 1, 1⟩ = .ok ⟨e, 1, 1⟩) (n : Nat) :
    VecOK C h g ⟨d, e, ext.isSome, n, fun i => if i < d then some (cells i 0 0) else none⟩ := by
  obtain ⟨h1, e', id, b, h2, h3, h4, h5, h6, h7, h8⟩ := hg
  rw [hs] at h2; cases h2
  have hd := selectSizes_fits hs
  refine ⟨h1, hs, h6, ?_, fun i hi => by simp only at hi ⊢; simp [hi], fun i hi => ?_, fun _ i hi => ?_, id, b, h3, h4, by rw [h5, prod1], ?_⟩
  · intro hk
    cases ext with
    | none => cases hk
    | some e' => exact (h8 e' rfl).2.1
  · simp only at hi ⊢
    by_cases hlt : i < d
    · exact Nat.lt_of_lt_of_le hlt hd.1
    · simp [hlt] at hi
  · simp only at hi ⊢
    rw [if_neg (by omega)]
  · rw [prod1] at h7
    refine h7.congr (fun r m k i hm hk hi => ?_)
    by_cases hlt : i < d
    · have hb : InBox ⟨d, 1, 1⟩ ⟨e, 1, 1⟩ i := (inBox1 hd.1 i).2 hlt
      have := gridCont_lin hd (cells := cells) (r := r) (k := k) (x := i) (y := 0) (z := 0) hlt (by simp) (by simp)
      rw [lin1] at this
      rw [this]
      simp [vcont, hlt]
    · rw [gridCont_out hd (fun hb => hlt ((inBox1 hd.1 i).1 hb))]
      simp [vcont, hlt]

/-- Modification of the cells by a callback. -/
theorem VecOK.callbackMut {h : Heap V} {g : Grid} {a : AVec V} (hg : VecOK C h g a)
    (f : Ext → Block V → Except UB (Block V)) (cells : Nat → Option (Cell V))
    (hlive : ∀ i, (a.cells i).isSome = true → (cells i).isSome = true) (hbnd : ∀ i, (cells i).isSome = true → i < a.ext)
    (hnt : ArrSpec.trivial C.L = false → ∀ i, a.dim ≤ i → cells i = none)
    (hf : ∀ b, View C.L a.ext b (vcont a.cells) →
      ∃ b', f ⟨a.ext, 1, 1⟩ b = .ok b' ∧ b'.size = b.size ∧ View C.L a.ext b' (vcont cells)) :
    ∃ id b', g.data = some id ∧ g.callbackMut C f h = .ok () (h.set id b') ∧
      VecOK C (h.set id b') g { a with cells := cells } := by
  obtain ⟨id, b, h1, h2, h2', h3⟩ := hg.buf
  obtain ⟨b', k1, k1', k2⟩ := hf b h3
  refine ⟨id, b', h1, ?_, hg.dim, hg.sel, hg.bs, hg.ex, fun i hi => hlive i (hg.live i hi), hbnd, hnt, id, b', h1, by simp,
    k1'.trans h2', k2⟩
  simp only [Grid.callbackMut, onBuffer, hg.dim, hg.sel, h1, h2, k1]

theorem VecOK.callbackRead {α : Type} {h : Heap V} {g : Grid} {a : AVec V} (hg : VecOK C h g a)
    (f : Ext → Block V → Except UB α) (x : α)
    (hf : ∀ b, View C.L a.ext b (vcont a.cells) → f ⟨a.ext, 1, 1⟩ b = .ok x) : g.callbackRead C f h = .ok x h := by
  obtain ⟨id, b, h1, h2, _, h3⟩ := hg.buf
  simp only [Grid.callbackRead, hg.dim, hg.sel, h1, h2, hf b h3]

/-- Cells `x … x+n-1` overwritten. -/
def putRow (cells : Nat → Option (Cell V)) (x n : Nat) (new : Nat → Cell V) : Nat → Option (Cell V) :=
  fun j => if x ≤ j ∧ j < x + n then some (new (j - x)) else cells j

/-- set and broadcast. -/
theorem VecOK.setRow (hL : C.L.WF) {h : Heap V} {g : Grid} {a : AVec V} (hg : VecOK C h g a)
    {stride : Nat} {cells : List (Cell V)} {x n : Nat} {new : Nat → Cell V}
    (hsrc : ∀ j, j < n → cells[j * stride]? = some (new j))
    (hw : ∀ j, j < n → VecSpec.Writable C.L a (x + j)) (hx : x + n ≤ a.ext) :
    ∃ id b', g.data = some id ∧
      g.callbackMut C (fun e => LFA.setFunctor C.L e stride cells x 0 0 n) h = .ok () (h.set id b') ∧
      VecOK C (h.set id b') g { a with cells := putRow a.cells x n new } := by
  refine hg.callbackMut _ _ (fun i hi => ?_) (fun i hi => ?_) (fun ht i hi => ?_) (fun b hv => ?_)
  · unfold putRow; split
    · rfl
    · exact hi
  · unfold putRow at hi; split at hi
    · omega
    · exact hg.bnd i hi
  · unfold putRow
    rw [if_neg, hg.nt ht i hi]
    rintro ⟨h1, h2⟩
    obtain ⟨_, h3⟩ := hw (i - x) (by omega)
    rw [show x + (i - x) = i by omega, hg.nt ht i hi, ht] at h3
    simp at h3
  · obtain ⟨b', k1, k2, k3⟩ := (Marks.setFunctor (e := ⟨a.ext, 1, 1⟩) (x := x) (y := 0) (z := 0) hL
      (by rw [lin1, prod1]; exact hx) hsrc (c := vcont a.cells) (w := fun r k i => some (new (i - x) r k))
      (fun r m k j _ _ _ => by rw [lin1, Nat.add_sub_cancel_left])
      (fun r m k j hm hk hj ht => by
        rw [lin1]
        obtain ⟨_, h3⟩ := hw j hj
        rw [trivial_mem hm ht] at h3
        exact vcont_isSome (by simpa using h3) r k)).run (by rw [prod1]; exact hv)
    refine ⟨b', k1, k2.1, ?_⟩
    rw [prod1] at k3
    refine k3.congr (fun r m k i hm hk _ => ?_)
    by_cases hr : x ≤ i ∧ i < x + n
    · rw [mark_pos ⟨by rw [lin1]; exact hr, m, hm, hk⟩]
      simp [vcont, putRow, hr]
    · rw [mark_neg (fun h => hr (by have := h.1; rw [lin1] at this; exact this))]
      simp [vcont, putRow, hr]

theorem putRow_one (cells : Nat → Option (Cell V)) (i : Nat) (c : Cell V) :
    putRow cells i 1 (fun _ => c) = VecSpec.put cells i c := by
  funext j
  unfold putRow VecSpec.put
  by_cases h : j = i
  · rw [if_pos (by omega), if_pos h]
  · rw [if_neg (by omega), if_neg h]

theorem VecOK.set (hL : C.L.WF) {h : Heap V} {g : Grid} {a : AVec V} (hg : VecOK C h g a) {i : Nat} (c : Cell V)
    (hw : VecSpec.Writable C.L a i) :
    ∃ id b', g.data = some id ∧ g.set C i 0 0 [c] 1 h = .ok () (h.set id b') ∧
      VecOK C (h.set id b') g { a with cells := VecSpec.put a.cells i c } := by
  have := hg.setRow hL (stride := 1) (cells := [c]) (x := i) (n := 1) (new := fun _ => c)
    (fun j hj => by
      have : j = 0 := by omega
      subst this; rfl)
    (fun j hj => by
      have : j = 0 := by omega
      subst this; exact hw) hw.1
  rw [putRow_one] at this
  exact this

theorem VecOK.get (hL : C.L.WF) {h : Heap V} {g : Grid} {a : AVec V} (hg : VecOK C h g a) {i : Nat} {c : Cell V}
    (hc : a.cells i = some c) (t : Cell V) : g.get C i 0 0 [t] 1 h = .ok [overlay C.L c t] h := by
  have hi := hg.bnd i (by simp [hc])
  refine hg.callbackRead _ _ (fun b hv => ?_)
  obtain ⟨out, k1, k2, k3, _⟩ := getFunctor_ok (e := ⟨a.ext, 1, 1⟩) (x := i) (y := 0) (z := 0) (count := 1) hL
    (by rw [lin1, prod1]; omega) (by rw [prod1]; exact hv) (val := fun _ => c)
    (fun r m k j hm hk hj => by
      have : j = 0 := by omega
      subst this
      rw [lin1]; exact vcont_some hc r k) [t] (by simp)
  rw [k1]
  congr 1
  have h0 := k3 0 (by omega)
  match out, k2 with
  | [o], _ => simpa using h0

theorem vshift {e : Nat} {x X : Int} {p : Nat} (hx : x + X = p) :
    ((accAt ⟨e, 1, 1⟩ (genIndex ⟨e, 1, 1⟩ x 0 0)).shift X 0 0).At p := by
  have := shift_At (e := ⟨e, 1, 1⟩) (x := x) (y := 0) (z := 0) (X := X) (Y := 0) (Z := 0) (px := p) (py := 0) (pz := 0)
    hx (by simp) (by simp)
  rw [lin1] at this; exact this

theorem VecOK.poke (hL : C.L.WF) {h : Heap V} {g : Grid} {a : AVec V} (hg : VecOK C h g a) {x X : Int} {p r k : Nat}
    {m : Member V} {c : Cell V} (v : V) (hm : C.L[r]? = some m) (hk : k < m.elems) (hx : x + X = p)
    (hc : a.cells p = some c) :
    ∃ id b', g.data = some id ∧
      g.callbackMut C (fun e => pokeFunctor C.L e x 0 0 X 0 0 r k v) h = .ok () (h.set id b') ∧
      VecOK C (h.set id b') g { a with cells := VecSpec.put a.cells p (c.set r k v) } := by
  have hp := hg.bnd p (by simp [hc])
  refine hg.callbackMut _ _ (fun i hi => ?_) (fun i hi => ?_) (fun ht i hi => ?_) (fun b hv => ?_)
  · unfold VecSpec.put; split
    · rfl
    · exact hi
  · unfold VecSpec.put at hi; split at hi
    · omega
    · exact hg.bnd i hi
  · unfold VecSpec.put
    rw [if_neg, hg.nt ht i hi]
    rintro rfl
    rw [hg.nt ht i hi] at hc; cases hc
  · simp only [pokeFunctor, hm]
    rw [userRef_slot hL (vshift hx) hm hk]
    obtain ⟨b', k1, k2, k3⟩ := (Marks.assign (c := vcont a.cells) (w := fun _ _ _ => some v) hL hm hk hp rfl rfl
      (fun _ => by rw [vcont_some hc]; rfl)).run hv
    have e1 : ((accAt ⟨a.ext, 1, 1⟩ (genIndex ⟨a.ext, 1, 1⟩ x 0 0)).shift X 0 0).ext.prod = a.ext := prod1 _
    refine ⟨b', by rw [e1]; exact k1, k2.1, k3.congr (fun r' m' k' i' hm' hk' _ => ?_)⟩
    by_cases hi : i' = p
    · subst hi
      rw [vcont_some (cells := VecSpec.put a.cells i' (c.set r k v)) (c := c.set r k v) (by simp [VecSpec.put])]
      by_cases hrk : r' = r ∧ k' = k
      · obtain ⟨rfl, rfl⟩ := hrk
        rw [mark_pos ⟨rfl, rfl, rfl⟩]
        simp [Cell.set]
      · rw [mark_neg (fun h => hrk ⟨h.1, h.2.1⟩), vcont_some hc]
        simp only [Cell.set, if_neg hrk]
    · rw [mark_neg (fun h => hi h.2.2)]
      simp [vcont, VecSpec.put, hi]

theorem VecOK.peek (hL : C.L.WF) {h : Heap V} {g : Grid} {a : AVec V} (hg : VecOK C h g a) {x X : Int} {p r k : Nat}
    {m : Member V} {c : Cell V} (hm : C.L[r]? = some m) (hk : k < m.elems) (hx : x + X = p) (hc : a.cells p = some c) :
    g.callbackRead C (fun e b => peekFunctor C.L e x 0 0 X 0 0 r k b) h = .ok (some (c r k)) h := by
  have hp := hg.bnd p (by simp [hc])
  refine hg.callbackRead _ _ (fun b hv => ?_)
  simp only [peekFunctor, hm]
  rw [userRef_slot hL (vshift hx) hm hk]
  have e1 : ((accAt ⟨a.ext, 1, 1⟩ (genIndex ⟨a.ext, 1, 1⟩ x 0 0)).shift X 0 0).ext.prod = a.ext := prod1 _
  rw [e1, hv.read hL hm hk hp (vcont_some hc r k)]
  rfl

/-- Destruction. -/
theorem VecOK.destroy (hL : C.L.WF) {h : Heap V} {g : Grid} {a : AVec V} (hg : VecOK C h g a) :
    ∃ id h', g.data = some id ∧ g.destroyAndDeallocate C h = .ok () h' ∧ h'.next = h.next ∧ h'.blk id = none ∧
      (∀ i, i ≠ id → h'.blk i = h.blk i) ∧ ∃ b, Clean b ∧ h'.freed = h.freed ++ [b] := by
  obtain ⟨id, b, h3, h4, hsz, h7⟩ := hg.buf
  have hd := hg.fits
  obtain ⟨b', k1, k2, k3⟩ := (Marks.destroyFunctor hL hd (c := vcont a.cells) (w := fun _ _ _ => none)
    (fun _ _ _ _ _ _ _ => rfl) (fun r m k i _ _ hi _ =>
      vcont_isSome (hg.live i ((inBox1 hg.le i).1 hi)) r k)).run (by rw [prod1]; exact h7)
  refine ⟨id, ⟨h.next, fun i => if i = id then none else h.blk i, h.freed ++ [b']⟩, h3, ?_, rfl, by simp,
    fun i hi => by simp [hi], b', ?_, rfl⟩
  · simp only [Grid.destroyAndDeallocate, h3, Grid.callbackMut, onBuffer, hg.dim, hg.sel, h4, k1, Res.bind, hg.bs,
      Heap.dealloc, Heap.blk_set_self]
    rw [if_pos (by rw [k2.1, hsz, byteSizeOf_eq, prod1])]
    simp only [Res.ofExcept]
    congr 2
    funext i
    by_cases hi : i = id
    · simp [hi]
    · simp [hi, Heap.set]
  · rw [prod1] at k3
    refine clean_of_view hL (by rw [k2.1, hsz]) k3 (fun r m k i hm hk hi ht => ?_)
    by_cases hb : i < a.dim
    · rw [mark_pos ⟨(inBox1 hg.le i).2 hb, m, hm, hk⟩]
    · rw [mark_neg (fun h => hb ((inBox1 hg.le i).1 h.1)), vcont_none (hg.nt (trivial_mem hm ht) i (by omega))]

theorem VecOK.dtor (hL : C.L.WF) {h : Heap V} {g : Grid} {a : AVec V} (hg : VecOK C h g a) :
    ∃ id h', g.data = some id ∧ g.dtor C h = .ok () h' ∧ h'.next = h.next ∧ h'.blk id = none ∧
      (∀ i, i ≠ id → h'.blk i = h.blk i) ∧ ∃ b, Clean b ∧ h'.freed = h.freed ++ [b] := by
  obtain ⟨id, h', h1, h2, h3⟩ := hg.destroy hL
  exact ⟨id, h', h1, by simp only [Grid.dtor, h2], h3⟩

/-- `copy_in` between vectors of the same capacity. -/
theorem VecOK.copyIn (hL : C.L.WF) {h : Heap V} {g other : Grid} {a o : AVec V} (hg : VecOK C h g a)
    (ho : VecOK C h other o) (hdim : a.dim = o.dim) (hsame : g.data = other.data → a.cells = o.cells) :
    ∃ id b', g.data = some id ∧ g.copyIn C other h = .ok () (g, h.set id b') ∧
      VecOK C (h.set id b') g { a with cells := fun i => if i < o.dim then o.cells i else a.cells i } := by
  have hext : a.ext = o.ext := by
    have h1 := hg.sel
    rw [hdim, ho.sel] at h1
    injection h1 with h1; injection h1 with h1; exact h1.symm
  obtain ⟨ido, bo, o3, o4, _, o7⟩ := ho.buf
  have hd := hg.fits
  let src := srcBlock h other.data g.data
  let w : Cont V := vcont fun i => if i < o.dim then o.cells i else a.cells i
  have hm : Marks C.L a.ext (vcont a.cells) w
      (copyFunctor C.L ⟨a.dim, 1, 1⟩ ⟨a.ext, 1, 1⟩ ⟨a.ext, 1, 1⟩ src) (BoxKeys C.L ⟨a.dim, 1, 1⟩ ⟨a.ext, 1, 1⟩) := by
    have := Marks.copyFunctor (L := C.L) (src := src) hL hd (cs := vcont o.cells) (c := vcont a.cells) (w := w)
      (fun bb S hbb => ?_) (fun r m k i _ _ hi => ?_)
      (fun r m k i _ _ hi _ => vcont_isSome (hg.live i ((inBox1 hg.le i).1 hi)) r k)
    · rw [prod1] at this; exact this
    · rw [prod1] at hbb ⊢
      by_cases heq : other.data = g.data
      · have e1 : src = fun b => b := by
          funext b
          simp only [src, srcBlock]
          rw [if_pos ⟨by rw [o3]; rfl, heq⟩]; rfl
        rw [e1]
        have ew : w = vcont o.cells := by
          show (vcont fun i => if i < o.dim then o.cells i else a.cells i) = _
          rw [hsame heq.symm]; simp
        rw [ew, hsame heq.symm] at hbb
        have : mark (vcont o.cells) (vcont o.cells) S = vcont o.cells := by
          funext r k i; simp [mark]
        rw [this] at hbb
        exact hbb.reads
      · have e1 : src = fun _ => bo := by
          funext b
          simp only [src, srcBlock]
          rw [if_neg (fun h => heq h.2), o3]
          simp [o4]
        rw [e1, hext]
        exact o7.reads
    · have hi' := (inBox1 hg.le i).1 hi
      rw [hdim] at hi'
      have hs := ho.live i hi'
      cases hc : o.cells i with
      | none => rw [hc] at hs; cases hs
      | some c =>
        refine ⟨c r k, vcont_some hc r k, ?_⟩
        exact vcont_some (by simp [hi', hc]) r k
  obtain ⟨id2, b2, k1, k2, k3⟩ := hg.callbackMut
    (fun et => copyFunctor C.L ⟨a.dim, 1, 1⟩ ⟨a.ext, 1, 1⟩ et src) (fun i => if i < o.dim then o.cells i else a.cells i)
    (fun i hi => by
      split
      · exact ho.live i (by assumption)
      · exact hi)
    (fun i hi => by
      split at hi
      · rw [hext]; exact ho.bnd i hi
      · exact hg.bnd i hi)
    (fun ht i hi => by
      rw [if_neg (by omega)]; exact hg.nt ht i hi)
    (fun bb hv => by
      obtain ⟨b3, j1, j2, j3⟩ := hm.run hv
      refine ⟨b3, j1, j2.1, j3.congr (fun r m k i hm hk _ => ?_)⟩
      by_cases hb : i < a.dim
      · rw [mark_pos ⟨(inBox1 hg.le i).2 hb, m, hm, hk⟩]
      · rw [mark_neg (fun h => hb ((inBox1 hg.le i).1 h.1))]
        have hb' : ¬ i < o.dim := by omega
        simp only [vcont, if_neg hb'])
  refine ⟨id2, b2, k1, ?_, k3⟩
  have hdims : other.dim = g.dim := by rw [ho.dim, hg.dim, hdim]
  have k4 : onBuffer g.data (copyFunctor C.L ⟨a.dim, 1, 1⟩ ⟨a.ext, 1, 1⟩ ⟨a.ext, 1, 1⟩ src) h = .ok () (h.set id2 b2) := by
    simpa only [Grid.callbackMut, hg.dim, hg.sel] using k2
  unfold Grid.copyIn Grid.dualCallback
  rw [hdims, hg.dim, hg.sel]
  simp only [o3, Option.map_some, o4, ne_eq, not_true_eq_false, or_self, if_false]
  have k5 : onBuffer g.data (copyFunctor C.L ⟨a.dim, 1, 1⟩ ⟨a.ext, 1, 1⟩ ⟨a.ext, 1, 1⟩ (srcBlock h (some ido) g.data)) h =
      .ok () (h.set id2 b2) := by
    rw [← o3]; exact k4
  rw [k5]
  cases C.asym <;> rfl

/-! ### Heap changes -/

/-- The vector which owned buffer `old` now owns buffer `new`. -/
structure Swapped (h h' : Heap V) (old : Option Nat) (new : Nat) : Prop where
  lo : h.next ≤ new
  hi : new < h'.next
  gone : ∀ i, old = some i → h'.blk i = none
  kept : ∀ i, old ≠ some i → i < h.next → h'.blk i = h.blk i
  rest : ∀ i, h.next ≤ i → i ≠ new → h'.blk i = none
  clean : (∀ b ∈ h.freed, Clean b) → ∀ b ∈ h'.freed, Clean b

theorem Swapped.set {h h' : Heap V} {old : Option Nat} {new : Nat} (hs : Swapped h h' old new)
    (hold : ∀ i, old = some i → i < h.next) (b : Block V) : Swapped h (h'.set new b) old new :=
  ⟨hs.lo, hs.hi,
   fun i hi => by
     have := hold i hi
     have := hs.lo
     rw [Heap.blk_set_ne _ _ (by omega)]; exact hs.gone i hi,
   fun i h1 h2 => by
     have := hs.lo
     rw [Heap.blk_set_ne _ _ (by omega)]; exact hs.kept i h1 h2,
   fun i h1 h2 => by rw [Heap.blk_set_ne _ _ h2]; exact hs.rest i h1 h2, hs.clean⟩

theorem Swapped.ofRealloc {h h' : Heap V} {old : Option Nat} (hr : Realloc h h' old)
    (hold : ∀ i, old = some i → i < h.next) (hf : ∀ i, h.next ≤ i → h.blk i = none) : Swapped h h' old h.next := by
  refine ⟨Nat.le_refl _, by rw [hr.next]; omega, fun i hi => ?_, fun i h1 h2 => hr.kept i h1 (by omega), fun i h1 h2 => ?_, hr.clean⟩
  · have := hold i hi; exact hr.gone i hi (by omega)
  · rw [hr.kept i (fun ho => by have := hold i ho; omega) h2]; exact hf i h1

/-- `reserve` fails cleanly if there are no such extents. -/
theorem reserve_throw {v : SVec} {m : Nat} {h : Heap V} {e : Exc} (hs : selectSizes C.tr ⟨m, 1, 1⟩ = .error e) :
    v.reserve C m h = .throw e (v, h) := by
  have hd' : ¬ (0 = m ∧ 0 = 1 ∧ 0 = 1) := by omega
  simp [SVec.reserve, Grid.new, Grid.resize, Grid.destroyAndDeallocate, Res.withGrid, Res.bind, hs]

/-- The new grid of `reserve` before loading: all cells up to its extent are constructed. -/
theorem reserve_grid (hL : C.L.WF) (h1 : OneD C.tr) {h : Heap V} (hf : ∀ i, h.next ≤ i → h.blk i = none) {m : Nat} {e : Ext}
    (hs : selectSizes C.tr ⟨m, 1, 1⟩ = .ok e) (dv : V) :
    ∃ ng h0 ng' h' new, Grid.new C ⟨m, 1, 1⟩ h = .ok () (ng, h0) ∧ ng.ex = some e.x ∧
      ng.resize C ⟨e.x, 1, 1⟩ h0 = .ok () (ng', h') ∧ ng'.data = some new ∧ Swapped h h' none new ∧ e = ⟨e.x, 1, 1⟩ ∧
      GridOK C h' ng' ⟨⟨e.x, 1, 1⟩, some e, Spec.dfltCells C.L dv⟩ := by
  obtain ⟨hy, hz⟩ := h1 m e hs
  have he : e = ⟨e.x, 1, 1⟩ := by cases e; simp_all
  have hid := h1.idem hs
  obtain ⟨g1, h0, k1, k2, k3, k4⟩ := resize_blank (C := C) (h := h) (g := ⟨⟨0, 0, 0⟩, none, none, none, none, none⟩) hL rfl
    (d := ⟨m, 1, 1⟩) (by simp) hs dv
  have sw1 := Swapped.ofRealloc k4 (fun i hi => (nomatch hi)) hf
  have hex : g1.ex = some e.x := by
    obtain ⟨_, e', _, _, q1, _, _, _, _, _, q2⟩ := k2
    have q1' : selectSizes C.tr ⟨m, 1, 1⟩ = .ok e' := q1
    rw [hs] at q1'; cases q1'
    exact (q2 e rfl).2.1
  by_cases hm : m = e.x
  · refine ⟨g1, h0, g1, h0, h.next, k1, hex, ?_, k3, sw1, he, ?_⟩
    · apply resize_same
      rw [k2.1]; show (⟨m, 1, 1⟩ : Ext) = _; rw [← hm]
    · rw [← hm]; exact k2
  · obtain ⟨g2, h2, j1, j2, j3, j4⟩ := k2.resize hL (d := ⟨e.x, 1, 1⟩) (by
      show (⟨m, 1, 1⟩ : Ext) ≠ _
      intro hh; injection hh with hh; exact hm hh) hid dv
    refine ⟨g1, h0, g2, h2, h0.next, k1, hex, j1, j3, ?_, he, j2⟩
    rw [k3] at j4
    have hn : h0.next = h.next + 1 := k4.next
    refine ⟨by omega, by rw [j4.next]; omega, fun i hi => (nomatch hi), fun i _ hi => ?_, fun i hi hi' => ?_,
      fun hc => j4.clean (k4.clean hc)⟩
    · rw [j4.kept i (by intro hh; injection hh with hh; omega) (by omega), k4.kept i (fun hh => (nomatch hh)) (by omega)]
    · by_cases hi2 : i = h.next
      · exact j4.gone i (by rw [hi2]) (by omega)
      · rw [j4.kept i (by intro hh; injection hh with hh; omega) (by omega),
          k4.kept i (fun hh => (nomatch hh)) (by omega)]
        exact hf i hi

theorem swap_dtor_dim (a b : Grid) (x y : Nat) (ha : a.dim = ⟨x, 1, 1⟩) (hb : b.dim = ⟨y, 1, 1⟩) :
    Grid.swap a b = (⟨⟨y, 1, 1⟩, b.ex, a.ey, a.ez, b.bs, b.data⟩, ⟨⟨x, 1, 1⟩, a.ex, b.ey, b.ez, a.bs, a.data⟩) := by
  simp [Grid.swap, swapDimX, swapExtX, ha, hb]

/-- The storage invariant does not depend on the y and z extents. -/
theorem VecOK.congr {h : Heap V} {g g' : Grid} {a : AVec V} (hg : VecOK C h g a) (h1 : g'.dim = g.dim) (h2 : g'.ex = g.ex)
    (h3 : g'.bs = g.bs) (h4 : g'.data = g.data) : VecOK C h g' a :=
  ⟨h1.trans hg.dim, hg.sel, h3.trans hg.bs, fun h => h2.trans (hg.ex h), hg.live, hg.bnd, hg.nt, by rw [h4]; exact hg.buf⟩

/-- `reserve`. -/
theorem VecOK.reserve (hL : C.L.WF) (h1 : OneD C.tr) (dv : V) {h : Heap V} {g : Grid} {a : AVec V} (hg : VecOK C h g a)
    (hf : ∀ i, h.next ≤ i → h.blk i = none) {m : Nat} {e : Ext} (hs : selectSizes C.tr ⟨m, 1, 1⟩ = .ok e)
    (hk : a.known = true) (hn : a.n ≤ e.x) (hn' : a.n ≤ a.ext) (hl : ∀ i, i < a.n → (a.cells i).isSome = true) :
    ∃ g' h' new, SVec.reserve C ⟨g, a.n⟩ m h = .ok () (⟨g', a.n⟩, h') ∧ g'.data = some new ∧ Swapped h h' g.data new ∧
      VecOK C h' g' ⟨e.x, e.x, true, a.n,
        fun i => if i < a.n then a.cells i else if i < e.x then some (dfltCell C.L dv) else none⟩ := by
  obtain ⟨ng, h0, ng', h2, new, k1, k2, k3, k4, k5, k6, k7⟩ := reserve_grid hL h1 hf hs dv
  obtain ⟨id, b, q1, q2, _, q3⟩ := hg.buf
  have hid : id < h.next := by
    by_contra hc
    rw [hf id (by omega)] at q2; cases q2
  have q2' : h2.blk id = some b := by rw [k5.kept id (fun hh => (nomatch hh)) hid]; exact q2
  have hne : new ≠ id := by have := k5.lo; omega
  let rows : List (Cell V) := (List.range a.n).map fun i => (a.cells i).getD (dfltCell C.L dv)
  have hrow : ∀ i, i < a.n → ∃ c, a.cells i = some c ∧ rows[i]? = some c := by
    intro i hi
    have := hl i hi
    cases hc : a.cells i with
    | none => rw [hc] at this; cases this
    | some c => exact ⟨c, rfl, by simp [rows, hi, hc]⟩
  have hlen : rows.length = a.n := by simp [rows]
  have hpk : Spec.Packed C.L a.ext rows b := by
    refine reads_packed (by omega) q3 (fun r m k i row hm hk hr => ?_)
    have hi : i < rows.length := by rcases List.getElem?_eq_some_iff.1 hr with ⟨h, _⟩; exact h
    obtain ⟨c, c1, c2⟩ := hrow i (by omega)
    rw [c2] at hr; cases hr
    exact vcont_some c1 r k
  have hco : Spec.coords [(⟨0, 0, 0, a.n⟩ : Streak)] = rowCoords 0 0 0 a.n := by
    rw [coords_cons]; simp [Spec.coords]
  obtain ⟨id', b', j1, j2, j3⟩ := k7.load hL (ss := [⟨0, 0, 0, a.n⟩]) (src := b) (n := a.ext) (rows := rows)
    (fun st hst => by
      rw [List.mem_singleton.1 hst]
      exact ⟨by simpa using hn, by simp, by simp⟩)
    (by rw [hco, rowCoords_length, hlen]) (by rw [hco, rowCoords_length]; exact hn') hpk
  rw [k4] at j1; cases j1
  rw [hco, scatter_row a.n 0 0 0 rows (by omega) _ (fun i => (a.cells i).getD (dfltCell C.L dv)) (fun j hj => by simp [rows, hj])] at j3
  have v1 := VecOK.ofGrid (n := a.n) j3 (by have := h1.idem hs; rwa [k6] at this)
  have hg2 : VecOK C (h2.set new b') g a := by
    refine hg.frame (fun i hi => ?_)
    rw [q1] at hi; cases hi
    rw [Heap.blk_set_ne _ _ (Ne.symm hne), q2', q2]
  have hsw := swap_dtor_dim ng' g e.x a.dim k7.1 hg.dim
  obtain ⟨id3, h3, d1, d2, d3, d4, d5, bc, d6, d7⟩ := (hg2.congr (g' := (Grid.swap ng' g).1) (by rw [hsw, hg.dim]) (by rw [hsw])
    (by rw [hsw]) (by rw [hsw])).dtor hL
  have d1' : g.data = some id3 := by rw [hsw] at d1; exact d1
  rw [q1] at d1'; cases d1'
  refine ⟨(Grid.swap ng' g).2, h3, new, ?_, by rw [hsw]; exact k4, ?_, ?_⟩
  · have hex := hg.ex hk
    simp only [SVec.reserve, k1, k2, k3, hex, q1, Option.bind_some, q2', j2, d2]
  · rw [q1]
    refine ⟨k5.lo, by rw [d3]; exact k5.hi, fun i hi => ?_, fun i hi hi' => ?_, fun i hi hi' => ?_, fun hc b2 hb2 => ?_⟩
    · cases hi; exact d4
    · have := k5.lo
      rw [d5 i (fun hh => hi (by rw [hh])), Heap.blk_set_ne _ _ (by omega)]
      exact k5.kept i (fun hh => (nomatch hh)) hi'
    · rw [d5 i (by omega), Heap.blk_set_ne _ _ hi']
      exact k5.rest i hi hi'
    · rw [d7] at hb2
      rcases List.mem_append.1 hb2 with hh | hh
      · exact k5.clean hc b2 hh
      · rw [List.mem_singleton.1 hh]; exact d6
  · have v2 : VecOK C h3 (Grid.swap ng' g).2 _ :=
      (v1.congr (g' := (Grid.swap ng' g).2) (by rw [hsw]; exact k7.1.symm) (by rw [hsw]) (by rw [hsw]) (by rw [hsw])).frame
        (fun i hi => by
          rw [hsw] at hi
          have hi' : ng'.data = some i := hi
          rw [k4] at hi'; cases hi'
          exact d5 new hne)
    refine cast ?_ v2
    congr 2
    funext i
    by_cases hi : i < a.n
    · obtain ⟨c, c1, _⟩ := hrow i hi
      rw [if_pos hi, if_pos (by omega), c1]
      simp [Spec.setRow, hi, c1]
    · rw [if_neg hi]
      by_cases hi2 : i < e.x
      · rw [if_pos hi2, if_pos hi2]
        simp [Spec.setRow, hi, Spec.dfltCells]
      · rw [if_neg hi2, if_neg hi2]

end
end LFA
