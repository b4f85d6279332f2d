/-
  Lemmas for the proofs about implementations of `short_vec`.
-/
import Verif.SV.Spec
set_option autoImplicit false

namespace LFA.SV

/-! ### Operations on lanes -/

section
variable {w : Nat} {V M : Type} {lanes : V → List (BitVec w)}

theorem map2?_some (g : BitVec w → BitVec w → BitVec w) (f : BitVec w → BitVec w → Option (BitVec w))
    (hf : ∀ x y z, f x y = some z → z = g x y) (as bs r : List (BitVec w)) (h : map2? f as bs = some r) :
    r = List.zipWith g as bs := by
  induction as generalizing bs r with
  | nil => simp only [map2?, Option.some.injEq] at h; simp [← h]
  | cons a as ih =>
    cases bs with
    | nil => simp only [map2?, Option.some.injEq] at h; simp [← h]
    | cons b bs =>
      simp only [map2?, Option.bind_eq_bind, Option.bind_eq_some_iff, Option.some.injEq] at h
      obtain ⟨c, hc, cs, hcs, rfl⟩ := h
      rw [List.zipWith_cons_cons, hf _ _ _ hc, ih _ _ hcs]

theorem map1?_some (g : BitVec w → BitVec w) (f : BitVec w → Option (BitVec w))
    (hf : ∀ x z, f x = some z → z = g x) (as r : List (BitVec w)) (h : map1? f as = some r) :
    r = as.map g := by
  induction as generalizing r with
  | nil => simp only [map1?, Option.some.injEq] at h; simp [← h]
  | cons a as ih =>
    simp only [map1?, Option.bind_eq_bind, Option.bind_eq_some_iff, Option.some.injEq] at h
    obtain ⟨c, hc, cs, hcs, rfl⟩ := h
    rw [List.map_cons, hf _ _ hc, ih _ hcs]

/-- Operations which are always defined. -/
theorem binOf {op : V → V → V} {g : BitVec w → BitVec w → BitVec w} {f : BitVec w → BitVec w → Option (BitVec w)}
    (hf : ∀ x y z, f x y = some z → z = g x y) (h : ∀ a b, lanes (op a b) = List.zipWith g (lanes a) (lanes b)) :
    BinLaw lanes (fun a b => some (op a b)) f :=
  fun a b _ hr => ⟨_, rfl, (h a b).trans (map2?_some g f hf _ _ _ hr).symm⟩

theorem binSome {op : V → V → V} {g : BitVec w → BitVec w → BitVec w}
    (h : ∀ a b, lanes (op a b) = List.zipWith g (lanes a) (lanes b)) :
    BinLaw lanes (fun a b => some (op a b)) (fun x y => some (g x y)) :=
  binOf (fun _ _ _ h => (Option.some.inj h).symm) h

theorem unSome {op : V → V} {g : BitVec w → BitVec w} (h : ∀ a, lanes (op a) = (lanes a).map g) :
    UnLaw lanes (fun a => some (op a)) (fun x => some (g x)) :=
  fun a _ hr => ⟨_, rfl, (h a).trans (map1?_some g _ (fun _ _ h => (Option.some.inj h).symm) _ _ hr).symm⟩

theorem map2?_cons {α β γ : Type} {f : α → β → Option γ} {a : α} {b : β} {as : List α} {bs : List β} {r : List γ}
    (h : map2? f (a :: as) (b :: bs) = some r) : ∃ c cs, f a b = some c ∧ map2? f as bs = some cs ∧ r = c :: cs := by
  simp only [map2?, Option.bind_eq_bind, Option.bind_eq_some_iff, Option.some.injEq] at h
  obtain ⟨c, hc, cs, hcs, rfl⟩ := h
  exact ⟨c, cs, hc, hcs, rfl⟩

theorem map2?_nil {α β γ : Type} {f : α → β → Option γ} {r : List γ} (h : map2? f [] [] = some r) : r = [] := by
  simp only [map2?, Option.some.injEq] at h; exact h.symm

/-- One step of a computation. -/
theorem bindS {α β : Type} {x : Option α} {a : α} {f : α → Option β} {r : Option β} (h : x = some a) (h' : f a = r) :
    (x >>= f) = r := by rw [h]; exact h'

theorem iadd_val {x y z : BitVec 32} (h : iadd x y = some z) : z = x + y := by
  unfold iadd at h; split at h
  · exact (Option.some.inj h).symm
  · exact (nomatch h)
theorem isub_val {x y z : BitVec 32} (h : isub x y = some z) : z = x - y := by
  unfold isub at h; split at h
  · exact (Option.some.inj h).symm
  · exact (nomatch h)
theorem imul_val {x y z : BitVec 32} (h : imul x y = some z) : z = x * y := by
  unfold imul at h; split at h
  · exact (Option.some.inj h).symm
  · exact (nomatch h)

/-- Lower half of a product. -/
theorem mul_lo (x y : BitVec 32) : ((x.setWidth 64 * y.setWidth 64).extractLsb' 0 32 : BitVec 32) = x * y := by
  apply BitVec.eq_of_toNat_eq
  rw [BitVec.extractLsb'_toNat, BitVec.toNat_mul, BitVec.toNat_mul, BitVec.toNat_setWidth, BitVec.toNat_setWidth]
  have := x.isLt; have := y.isLt
  rw [Nat.mod_eq_of_lt (by omega : x.toNat < 2 ^ 64), Nat.mod_eq_of_lt (by omega : y.toNat < 2 ^ 64), Nat.shiftRight_zero,
    Nat.mod_mod_of_dvd _ (by decide)]

/-! ### Alignment -/

theorem aligned_iff (sz : Nat) (p : Int) (al : Nat) : aligned sz p al = true ↔ (al : Int) ∣ p * sz := by
  simp only [aligned, beq_iff_eq]
  exact Int.dvd_iff_emod_eq_zero.symm

theorem aligned_of_dvd {sz al al' : Nat} {p : Int} (h : aligned sz p al) (hd : al' ∣ al) : aligned sz p al' = true :=
  (aligned_iff ..).2 (Int.dvd_trans (Int.natCast_dvd_natCast.2 hd) ((aligned_iff ..).1 h))

theorem aligned_add {sz al : Nat} {p : Int} (k : Int) (h : aligned sz p al) (hk : (k * sz) % al = 0) :
    aligned sz (p + k) al = true :=
  (aligned_iff ..).2 (by rw [Int.add_mul]; exact Int.dvd_add ((aligned_iff ..).1 h) (Int.dvd_of_emod_eq_zero hk))

theorem aligned_one (sz : Nat) (p : Int) : aligned sz p 1 = true := (aligned_iff ..).2 (Int.one_dvd _)

theorem assertAligned_ok {sz al : Nat} {p : Int} (h : aligned sz p al) : assertAligned sz p al = some () := by
  simp [assertAligned, h]

/-! ### Stores -/

theorem st_append (p : Int) (xs ys : List (BitVec w)) : st p (xs ++ ys) = st p xs ++ st (p + xs.length) ys := by
  induction xs generalizing p with
  | nil => simp [st]
  | cons x xs ih => simp [st, ih, Int.add_assoc, Int.add_comm 1]

theorem applyW_append (m : Mem w) (xs ys : Writes w) : applyW m (xs ++ ys) = (applyW m xs).bind fun m => applyW m ys := by
  induction xs generalizing m with
  | nil => rfl
  | cons x xs ih =>
    simp only [List.cons_append, applyW]
    cases wr m x.1 x.2 with
    | none => rfl
    | some m' => exact ih m'

/-- Stores to addresses which are accessible. -/
theorem applyW_some (m : Mem w) (ws : Writes w) (h : ∀ x ∈ ws, (m x.1).isSome) :
    ∃ m', applyW m ws = some m' ∧ (∀ a, (∀ x ∈ ws, a ≠ x.1) → m' a = m a) ∧ (∀ a, (m' a).isSome = (m a).isSome) ∧
      (ws.Pairwise (fun x y => x.1 ≠ y.1) → ∀ x ∈ ws, m' x.1 = some x.2) := by
  induction ws generalizing m with
  | nil => exact ⟨m, rfl, fun _ _ => rfl, fun _ => rfl, fun _ _ hx => nomatch hx⟩
  | cons x ws ih =>
    obtain ⟨a, v⟩ := x
    have ha := h (a, v) (List.mem_cons_self ..)
    obtain ⟨y, hy⟩ := Option.isSome_iff_exists.1 ha
    have hw : wr m a v = some fun b => if b = a then some v else m b := by simp [wr, hy]
    have hs : ∀ b, ((fun b => if b = a then some v else m b) b : Option (BitVec w)).isSome = (m b).isSome := by
      intro b
      by_cases hb : b = a
      · simp [hb, hy]
      · simp [hb]
    obtain ⟨m', h1, h2, h3, h4⟩ := ih (fun b => if b = a then some v else m b)
      (fun x hx => by rw [hs]; exact h x (List.mem_cons_of_mem _ hx))
    refine ⟨m', by simp [applyW, hw, h1], ?_, ?_, ?_⟩
    · intro b hb
      rw [h2 b fun x hx => hb x (List.mem_cons_of_mem _ hx)]
      simp [hb (a, v) (List.mem_cons_self ..)]
    · intro b; rw [h3, hs]
    · intro hp x hx
      rw [List.pairwise_cons] at hp
      cases hx with
      | head =>
        rw [h2 a fun x hx => hp.1 x hx]; simp
      | tail _ hx => exact h4 hp.2 x hx

theorem mem_st {p : Int} {xs : List (BitVec w)} {x : Int × BitVec w} :
    x ∈ st p xs ↔ ∃ k : Nat, k < xs.length ∧ x = (p + k, xs.getD k 0) := by
  induction xs generalizing p with
  | nil => simp [st]
  | cons y ys ih =>
    simp only [st, List.mem_cons, ih]
    constructor
    · rintro (rfl | ⟨k, hk, rfl⟩)
      · exact ⟨0, by simp, by simp⟩
      · exact ⟨k + 1, by simpa using hk, by simp; omega⟩
    · rintro ⟨k, hk, rfl⟩
      cases k with
      | zero => left; simp
      | succ k => right; exact ⟨k, by simpa using hk, by simp; omega⟩

theorem pairwise_st (p : Int) (xs : List (BitVec w)) : (st p xs).Pairwise fun x y => x.1 ≠ y.1 := by
  induction xs generalizing p with
  | nil => exact List.Pairwise.nil
  | cons y ys ih =>
    refine List.Pairwise.cons ?_ (ih _)
    intro x hx
    obtain ⟨k, _, rfl⟩ := mem_st.1 hx
    show p ≠ p + 1 + k
    omega

/-- The stores may be in any order. -/
theorem storeOfPerm {N : Nat} {store : V → Int → Option (Writes w)} {al : Nat} (hl : LenLaw N lanes)
    (h : ∀ v p, aligned (w / 8) p al → ∃ ws, store v p = some ws ∧ ws.Perm (st p (lanes v))) : StoreLaw N lanes store al := by
  intro m v p ha hm
  obtain ⟨ws, hs, hp⟩ := h v p ha
  obtain ⟨m', h1, h2, _, h4⟩ := applyW_some m ws fun x hx => by
    obtain ⟨k, hk, rfl⟩ := mem_st.1 (hp.mem_iff.1 hx)
    exact hm k (by rw [hl] at hk; exact hk)
  refine ⟨ws, m', hs, h1, ?_, ?_⟩
  · intro k hk
    have hx : (p + (k : Int), (lanes v).getD k 0) ∈ ws := hp.mem_iff.2 (mem_st.2 ⟨k, by rw [hl]; exact hk, rfl⟩)
    exact h4 (hp.symm.pairwise (pairwise_st _ _) (fun h => h.symm)) _ hx
  · intro a hn
    apply h2
    intro x hx
    obtain ⟨k, hk, rfl⟩ := mem_st.1 (hp.mem_iff.1 hx)
    exact hn k (by rw [hl] at hk; exact hk)

theorem storeOf {N : Nat} {store : V → Int → Option (Writes w)} {al : Nat} (hl : LenLaw N lanes)
    (h : ∀ v p, aligned (w / 8) p al → store v p = some (st p (lanes v))) : StoreLaw N lanes store al :=
  storeOfPerm hl fun v p ha => ⟨_, h v p ha, List.Perm.refl _⟩

end

section
variable {V : Type} {w : Nat} {lanes : V → List (BitVec w)}

theorem st_eq (p : Int) (xs : List (BitVec w)) : st p xs = (List.range xs.length).map fun k : Nat => (p + (k : Int), xs.getD k 0) := by
  induction xs generalizing p with
  | nil => rfl
  | cons x xs ih =>
    rw [List.length_cons, List.range_succ_eq_map, List.map_cons, List.map_map, st, ih]
    congr 1
    · simp
    · apply List.map_congr_left
      intro k _
      simp only [Function.comp, List.getD_cons_succ, Prod.mk.injEq, and_true]
      omega

theorem storeOfMap {N : Nat} {store : V → Int → Option (Writes w)} {al : Nat} (hl : LenLaw N lanes)
    (h : ∀ v p, aligned (w / 8) p al → store v p = some ((List.range N).map fun k : Nat => (p + (k : Int), (lanes v).getD k 0))) :
    StoreLaw N lanes store al :=
  storeOf hl fun v p ha => by rw [h v p ha, st_eq, hl]

end

/-! ### Lanes of registers -/

theorem lanes4 {w : Nat} (a : R4 (BitVec w)) : lanes a = [a.x0, a.x1, a.x2, a.x3] := rfl
theorem lanes2 (a : M128d) : lanes a = [a.x0, a.x1] := rfl
theorem lanes24 (a : M256) : lanes a = [a.x0.x0, a.x0.x1, a.x0.x2, a.x0.x3, a.x1.x0, a.x1.x1, a.x1.x2, a.x1.x3] := rfl
theorem lanes22 (a : M256d) : lanes a = [a.x0.x0, a.x0.x1, a.x1.x0, a.x1.x1] := rfl
theorem lanes224 (a : M512) : lanes a = [a.x0.x0.x0, a.x0.x0.x1, a.x0.x0.x2, a.x0.x0.x3, a.x0.x1.x0, a.x0.x1.x1, a.x0.x1.x2,
    a.x0.x1.x3, a.x1.x0.x0, a.x1.x0.x1, a.x1.x0.x2, a.x1.x0.x3, a.x1.x1.x0, a.x1.x1.x1, a.x1.x1.x2, a.x1.x1.x3] := rfl
theorem lanes222 (a : M512d) : lanes a = [a.x0.x0.x0, a.x0.x0.x1, a.x0.x1.x0, a.x0.x1.x1, a.x1.x0.x0, a.x1.x0.x1, a.x1.x1.x0,
    a.x1.x1.x1] := rfl

/-! ### Division by a square root which has been computed before -/

theorem map2?_map {α β γ δ : Type} (f : α → γ → Option δ) (g : β → γ) (as : List α) (bs : List β) :
    map2? f as (bs.map g) = map2? (fun x y => f x (g y)) as bs := by
  induction as generalizing bs with
  | nil => cases bs <;> rfl
  | cons a as ih => cases bs with
    | nil => rfl
    | cons b bs => simp only [List.map, map2?, ih]

theorem divOf {V : Type} {w : Nat} {lanes : V → List (BitVec w)} {div : V → V → Option V} {sq : V → V}
    {f : BitVec w → BitVec w → Option (BitVec w)} {g : BitVec w → BitVec w}
    (hd : BinLaw lanes div f) (hs : UnLaw lanes (fun a => some (sq a)) (fun x => some (g x))) :
    BinLaw lanes (fun a b => div a (sq b)) (fun x y => f x (g y)) := by
  intro a b r h
  have e : lanes (sq b) = (lanes b).map g := by
    have : ∀ l : List (BitVec w), map1? (fun x => some (g x)) l = some (l.map g) := by
      intro l
      induction l with
      | nil => rfl
      | cons x xs ih => simp only [map1?, ih]; rfl
    obtain ⟨v, h1, h2⟩ := hs b _ (this (lanes b))
    rw [Option.some.inj h1]; exact h2
  exact hd a (sq b) r (by rw [e, map2?_map]; exact h)

/-! ### Gather -/

theorem gaddr44 (b : Int) (i : BitVec 32) : gaddr 4 b 4 i = b + i.toInt := by
  simp only [gaddr]; congr 1; exact Int.mul_ediv_cancel _ (by decide)
theorem gaddr88 (b : Int) (i : BitVec 32) : gaddr 8 b 8 i = b + i.toInt := by
  simp only [gaddr]; congr 1; exact Int.mul_ediv_cancel _ (by decide)

theorem not_msb {i : BitVec 32} (h : 0 ≤ i.toInt) : i.msb = false := by
  cases hm : i.msb
  · rfl
  · have := BitVec.toInt_neg_of_msb_true hm; omega

/-! ### Masks in registers -/

section
variable {w : Nat}

theorem pat_or (a b : Bool) : pat w a ||| pat w b = pat w (a || b) := by
  cases a <;> cases b <;> simp [pat]
theorem pat_and_self (a : Bool) : pat w a &&& pat w a = pat w a := by
  cases a <;> simp [pat]
theorem pat32_eq_zero (a : Bool) : (pat 32 a == 0) = !a := by cases a <;> decide
theorem pat32_ne_zero (a : Bool) : (pat 32 a != 0) = a := by cases a <;> decide
theorem truthy32 (a : Bool) : truthy (pat 32 a) = a := by cases a <;> decide
theorem truthy64 (a : Bool) : truthy (pat 64 a) = a := by cases a <;> decide
theorem pat_lo (a : Bool) : (pat 64 a).extractLsb' 0 32 = pat 32 a := by cases a <;> decide
theorem pat_hi (a : Bool) : (pat 64 a).extractLsb' 32 32 = pat 32 a := by cases a <;> decide
theorem pat_msb32 (a : Bool) : (pat 32 a).msb = a := by cases a <;> decide
theorem pat_msb64 (a : Bool) : (pat 64 a).msb = a := by cases a <;> decide
theorem pat_sel (a : Bool) (x y : BitVec w) : pat w a &&& y ||| ~~~pat w a &&& x = if a then y else x := by
  cases a <;> simp [pat]
theorem zero_eq_b2i (a : Bool) : ((0 : BitVec 32) == b2i a) = !a := by cases a <;> decide
theorem b2i_eq_one (a : Bool) : (b2i a == (1 : BitVec 32)) = a := by cases a <;> decide
end

/-! ### Integers from bits -/

theorem ofBools_toNat_lt (w : Nat) (bs : List Bool) (h : bs.length ≤ w) : (ofBools w bs).toNat < 2 ^ bs.length := by
  induction bs with
  | nil => simp [ofBools]
  | cons b bs ih =>
    have ih := ih (by simp at h; omega)
    have h' : bs.length + 1 ≤ w := by simpa using h
    have : (ofBools w bs <<< 1 ||| (if b then 1 else 0) : BitVec w).toNat < 2 ^ (bs.length + 1) := by
      rw [BitVec.toNat_or]
      apply Nat.or_lt_two_pow
      · rw [BitVec.toNat_shiftLeft]
        have : (ofBools w bs).toNat <<< 1 < 2 ^ (bs.length + 1) := by
          rw [Nat.shiftLeft_eq, Nat.pow_succ]; omega
        exact Nat.lt_of_le_of_lt (Nat.mod_le _ _) this
      · have : 2 ^ (bs.length + 1) ≥ 2 := by
          rw [Nat.pow_succ]; have := Nat.one_le_two_pow (n := bs.length); omega
        split
        · have : (1 : BitVec w).toNat ≤ 1 := by simp [Nat.mod_le]
          omega
        · simp; omega
    simpa [ofBools] using this

theorem ofBools_getLsbD (w : Nat) (bs : List Bool) (h : bs.length ≤ w) (i : Nat) : (ofBools w bs).getLsbD i = bs.getD i false := by
  induction bs generalizing i with
  | nil => simp [ofBools]
  | cons b bs ih =>
    have h' : bs.length + 1 ≤ w := by simpa using h
    have ih := ih (by omega)
    rw [ofBools, BitVec.getLsbD_or]
    cases i with
    | zero => cases b <;> simp; omega
    | succ i =>
      have e : (if b then (1 : BitVec w) else 0).getLsbD (i + 1) = false := by cases b <;> simp
      rw [e, Bool.or_false, BitVec.getLsbD_shiftLeft]
      by_cases hi : i + 1 < w
      · simp [hi, ih]
      · have : bs.length ≤ i := by omega
        simp [hi, List.getElem?_eq_none this]

theorem ofBools_append (w : Nat) (bs cs : List Bool) (h : bs.length + cs.length ≤ w) :
    ofBools w (bs ++ cs) = ofBools w bs ||| ofBools w cs <<< bs.length := by
  apply BitVec.eq_of_getLsbD_eq
  intro i hi
  rw [BitVec.getLsbD_or, BitVec.getLsbD_shiftLeft, ofBools_getLsbD _ _ (by simpa using h), ofBools_getLsbD _ _ (by omega),
    ofBools_getLsbD _ _ (by omega)]
  simp only [List.getD_eq_getElem?_getD, List.getElem?_append]
  by_cases hb : i < bs.length <;> simp [hb, hi]

theorem iadd_disjoint (a b : BitVec 32) (n : Nat) (hn : n < 32) (ha : a.toNat < 2 ^ n) (hb : ∀ i < n, b.getLsbD i = false) :
    iadd a b = some (a ||| b) := by
  have hd : a &&& b = 0 := by
    apply BitVec.eq_of_getLsbD_eq
    intro i _
    rw [BitVec.getLsbD_and]
    by_cases hi : i < n
    · simp [hb i hi]
    · have : a.getLsbD i = false := by
        rw [BitVec.getLsbD, Nat.testBit_lt_two_pow]
        exact Nat.lt_of_lt_of_le ha (Nat.pow_le_pow_right (by decide) (by omega))
      simp [this]
  have h31 : 2 ^ n ≤ 2 ^ 31 := Nat.pow_le_pow_right (by decide) (by omega)
  have ha31 : a.toNat < 2 ^ 31 := Nat.lt_of_lt_of_le ha h31
  have hat : a.toInt = a.toNat := by rw [BitVec.toInt_eq_toNat_of_lt]; omega
  -- `b` is a multiple of `2 ^ n`
  have hor : a + b = a ||| b := by rw [BitVec.add_eq_or_of_and_eq_zero _ _ hd]
  have hbm : 2 ^ n ∣ b.toNat := by
    have : b.toNat % 2 ^ n = 0 := by
      apply Nat.eq_of_testBit_eq
      intro i
      rw [Nat.testBit_mod_two_pow]
      by_cases hi : i < n
      · have := hb i hi; simp [BitVec.getLsbD] at this; simp [hi, this]
      · simp [hi]
    exact Nat.dvd_of_mod_eq_zero this
  have hin : inInt (a.toInt + b.toInt) = true := by
    have hbl := b.isLt
    have h2 : (2 : Int) ^ 31 = 2147483648 := by decide
    have h2' : (2 : Nat) ^ 31 = 2147483648 := by decide
    have h2'' : (2 : Nat) ^ 32 = 4294967296 := by decide
    rw [inInt, Bool.and_eq_true, decide_eq_true_eq, decide_eq_true_eq, hat, h2]
    by_cases hs : 2 * b.toNat < 2 ^ 32
    · rw [BitVec.toInt_eq_toNat_of_lt hs]
      -- multiple of `2 ^ n` below `2 ^ 31`
      obtain ⟨q, hq⟩ := hbm
      obtain ⟨r, hr⟩ : 2 ^ n ∣ 2 ^ 31 := Nat.pow_dvd_pow 2 (by omega)
      have : q < r := by
        apply Nat.lt_of_mul_lt_mul_left (a := 2 ^ n)
        rw [← hq, ← hr]; omega
      have : 2 ^ n * (q + 1) ≤ 2 ^ n * r := Nat.mul_le_mul_left _ this
      rw [Nat.mul_add, ← hq, ← hr, Nat.mul_one] at this
      omega
    · have : b.toInt = (b.toNat : Int) - 2 ^ 32 := by rw [BitVec.toInt_eq_toNat_cond, if_neg hs]; norm_cast
      have h3 : (2 : Int) ^ 32 = 4294967296 := by decide
      rw [this, h3]
      omega
  rw [iadd, if_pos hin, hor]

theorem maskStep (bs : List Bool) (c : Bool) (h : bs.length < 32) :
    iadd (ofBools 32 bs) (b2i c <<< bs.length) = some (ofBools 32 (bs ++ [c])) := by
  rw [iadd_disjoint _ _ bs.length h (ofBools_toNat_lt _ _ (by omega)), ofBools_append _ _ _ (by simp; omega)]
  · congr 3; cases c <;> decide
  · intro i hi
    rw [BitVec.getLsbD_shiftLeft]; simp [hi]

theorem bitTest (x : BitVec 32) (k : Nat) (h : k < 32) : (x &&& BitVec.ofNat 32 (2 ^ k) != 0) = x.getLsbD k := by
  have e : ∀ i, (BitVec.ofNat 32 (2 ^ k)).getLsbD i = decide (i = k) := by
    intro i
    rw [BitVec.getLsbD_ofNat, Nat.testBit_two_pow]
    by_cases hi : i = k
    · simp [hi, h]
    · simp [hi, Ne.symm hi]
  cases hx : x.getLsbD k
  · rw [bne_eq_false_iff_eq]
    apply BitVec.eq_of_getLsbD_eq
    intro i _
    rw [BitVec.getLsbD_and, e]
    by_cases hi : i = k
    · simp [hi, hx]
    · simp [hi]
  · rw [bne_iff_ne]
    intro h0
    have : (x &&& BitVec.ofNat 32 (2 ^ k)).getLsbD k = false := by rw [h0]; simp
    rw [BitVec.getLsbD_and, e, hx] at this
    simp at this

/-- Masks of registers are joined the same way. -/
theorem maskJoin (n : Nat) (bs cs : List Bool) (hc : cs.length ≤ n) (hn : n ≤ 32) (h : bs.length + cs.length ≤ 32)
    (h' : bs.length < 32) :
    iadd (ofBools 32 bs) (promote (ofBools n cs) <<< bs.length) = some (ofBools 32 (bs ++ cs)) := by
  have e : promote (ofBools n cs) = ofBools 32 cs := by
    apply BitVec.eq_of_getLsbD_eq
    intro i hi
    rw [promote, BitVec.getLsbD_setWidth, ofBools_getLsbD _ _ hc, ofBools_getLsbD _ _ (by omega)]
    simp [hi]
  rw [e, iadd_disjoint _ _ bs.length h' (ofBools_toNat_lt _ _ (by omega)), ofBools_append _ _ _ h]
  intro i hi
  rw [BitVec.getLsbD_shiftLeft]; simp [hi]

/-! ### Masks as integers -/

section
variable {w : Nat} {V : Type} {lanes : V → List (BitVec w)}

theorem anyBits {N b : Nat} (vany : V → Bool) : AnyLaw N lanes (MaskKind.bits (V := V) b) (anyOf vany (MaskKind.bits b)) := by
  intro m bs _ h
  obtain ⟨hb, h⟩ := h
  change (m != 0) = bs.any id
  cases ha : bs.any id
  · rw [bne_eq_false_iff_eq]
    apply BitVec.eq_of_getLsbD_eq
    intro i _
    rw [h i]
    simp only [List.any_eq_false, id] at ha
    by_cases hi : i < bs.length
    · have := ha bs[i] (List.getElem_mem hi)
      simp [List.getD, hi]
      simpa using this
    · simp [List.getD, List.getElem?_eq_none (Nat.le_of_not_lt hi)]
  · rw [bne_iff_ne]
    rintro rfl
    simp only [List.any_eq_true, id] at ha
    obtain ⟨x, hx, rfl⟩ := ha
    obtain ⟨i, hi, e⟩ := List.getElem_of_mem hx
    have := h i
    simp [List.getD, hi, e] at this

theorem repOf {b : Nat} (bs : List Bool) (h : bs.length ≤ b) (hb : b ≤ 32) (i : Nat) :
    ((ofBools 32 bs).setWidth b).getLsbD i = bs.getD i false := by
  rw [BitVec.getLsbD_setWidth, ofBools_getLsbD _ _ (by omega)]
  by_cases hi : i < b
  · simp [hi]
  · simp [hi, List.getD, List.getElem?_eq_none (show bs.length ≤ i by omega)]

theorem promote_ofBools {n : Nat} (bs : List Bool) (h : bs.length ≤ n) (hn : n ≤ 32) : promote (ofBools n bs) = ofBools 32 bs := by
  apply BitVec.eq_of_getLsbD_eq
  intro i hi
  rw [promote, BitVec.getLsbD_setWidth, ofBools_getLsbD _ _ h, ofBools_getLsbD _ _ (by omega)]
  simp [hi]

theorem pbit {b : Nat} (m : BitVec b) (k : Nat) (h : k < 32) : (promote m &&& BitVec.ofNat 32 (2 ^ k) != 0) = m.getLsbD k := by
  rw [bitTest _ _ h, promote, BitVec.getLsbD_setWidth]; simp [h]

theorem psh {b : Nat} (m : BitVec b) (h : b < 32) (s : Nat) : (promote m).sshiftRight s = promote m >>> s := by
  rw [BitVec.sshiftRight_eq_of_msb_false]
  rw [promote, BitVec.msb_setWidth]
  simp [BitVec.getLsbD_of_ge, show b ≤ 31 by omega]

theorem psh8 (m : BitVec 8) (s : Nat) : (promote m).sshiftRight s = promote m >>> s := psh m (by decide) s
theorem psh16 (m : BitVec 16) (s : Nat) : (promote m).sshiftRight s = promote m >>> s := psh m (by decide) s

theorem lowBits (n i : Nat) (hn : n ≤ 32) : (BitVec.ofNat 32 (2 ^ n - 1)).getLsbD i = decide (i < n) := by
  rw [BitVec.getLsbD_ofNat, Nat.testBit_two_pow_sub_one]
  by_cases h : i < n
  · simp [h]; omega
  · simp [h]

theorem sel8 (m : BitVec 32) (s i : Nat) : ((m >>> s &&& (255 : BitVec 32)).setWidth 8).getLsbD i = (decide (i < 8) && m.getLsbD (s + i)) := by
  rw [BitVec.getLsbD_setWidth, BitVec.getLsbD_and, BitVec.getLsbD_ushiftRight, show (255 : BitVec 32) = BitVec.ofNat 32 (2 ^ 8 - 1) from rfl,
    lowBits 8 i (by decide)]
  cases decide (i < 8) <;> simp
theorem sel16 (m : BitVec 32) (s i : Nat) :
    ((m >>> s &&& (65535 : BitVec 32)).setWidth 16).getLsbD i = (decide (i < 16) && m.getLsbD (s + i)) := by
  rw [BitVec.getLsbD_setWidth, BitVec.getLsbD_and, BitVec.getLsbD_ushiftRight, show (65535 : BitVec 32) = BitVec.ofNat 32 (2 ^ 16 - 1) from rfl,
    lowBits 16 i (by decide)]
  cases decide (i < 16) <;> simp
theorem selLo (m : BitVec 32) (n s i : Nat) : ((m >>> s).setWidth n).getLsbD i = (decide (i < n) && m.getLsbD (s + i)) := by
  rw [BitVec.getLsbD_setWidth, BitVec.getLsbD_ushiftRight]
theorem promote_get {b : Nat} (m : BitVec b) (i : Nat) : (promote m).getLsbD i = (decide (i < 32) && m.getLsbD i) := by
  rw [promote, BitVec.getLsbD_setWidth]

/-- `_mm512_test_epi64_mask` -/
theorem ofBools_ne_zero (bs : List Bool) (h : bs.length ≤ 8) : (ofBools 8 bs != 0) = bs.any id :=
  anyBits (lanes := fun x : BitVec 8 => [x]) (fun _ => false) (ofBools 8 bs) bs rfl ⟨h, fun i => ofBools_getLsbD 8 bs h i⟩

end

/-! ### MIC: pairs of loads and stores, one for each cache line -/

section
variable {w : Nat}

theorem line_next {sz n : Nat} (hs : n * sz = 64) (p : Int) : line sz (p + n) = line sz p + 1 := by
  unfold line
  have : (p + (n : Int)) * sz = p * sz + 64 := by
    rw [Int.add_mul]; congr 1; exact_mod_cast hs
  rw [this]; omega

theorem line_cases {sz n : Nat} (hs : n * sz = 64) (p : Int) (k : Nat) (hk : k < n) :
    line sz (p + k) = line sz p ∨ line sz (p + k) = line sz p + 1 := by
  have hsz : 0 < sz := Nat.pos_of_ne_zero (by rintro rfl; simp at hs)
  have h1 : k * sz < 64 := by rw [← hs]; exact (Nat.mul_lt_mul_right hsz).2 hk
  unfold line
  have e : (p + (k : Int)) * sz = p * sz + ((k * sz : Nat) : Int) := by rw [Int.add_mul]; push_cast; rfl
  rw [e]; omega

theorem unpackLo_some (sz : Nat) (m : Mem w) (p : Int) (g : Nat → BitVec w) (xs : List (BitVec w)) (j : Nat)
    (hm : ∀ k : Nat, j ≤ k → k < j + xs.length → m (p + k) = some (g k)) :
    ∃ ys, unpackLo sz m p (p + j) xs = some ys ∧ ys.length = xs.length ∧
      ∀ i < xs.length, line sz (p + (j + i : Nat)) = line sz p → ys[i]? = some (g (j + i)) := by
  induction xs generalizing j with
  | nil => exact ⟨[], rfl, rfl, fun i hi => absurd hi (Nat.not_lt_zero i)⟩
  | cons x xs ih =>
    obtain ⟨ys, h1, h2, h3⟩ := ih (j + 1) fun k hk hk' => hm k (by omega) (by simp only [List.length_cons]; omega)
    have h0 := hm j (Nat.le_refl _) (by simp only [List.length_cons]; omega)
    have e : p + (j : Int) + 1 = p + ((j + 1 : Nat) : Int) := by push_cast; omega
    refine ⟨(if line sz (p + j) = line sz p then g j else x) :: ys, ?_, by simp [h2], ?_⟩
    · simp only [unpackLo, e, h1, h0, bind, Option.bind, Option.getD]
      split <;> simp
    · intro i hi hl
      cases i with
      | zero =>
        have : line sz (p + (j : Int)) = line sz p := hl
        simp [this]
      | succ i =>
        have e' : j + (i + 1) = j + 1 + i := by omega
        rw [e'] at hl ⊢
        rw [List.getElem?_cons_succ]
        exact h3 i (by simpa using hi) hl

theorem unpackHi_some (sz : Nat) (m : Mem w) (p b : Int) (g : Nat → BitVec w) (xs : List (BitVec w)) (j : Nat)
    (hm : ∀ k : Nat, j ≤ k → k < j + xs.length → m (p + k) = some (g k)) :
    ∃ ys, unpackHi sz m b (p + j) xs = some ys ∧ ys.length = xs.length ∧
      ∀ i < xs.length, ys[i]? = if line sz (p + (j + i : Nat)) = line sz b then some (g (j + i)) else xs[i]? := by
  induction xs generalizing j with
  | nil => exact ⟨[], rfl, rfl, fun i hi => absurd hi (Nat.not_lt_zero i)⟩
  | cons x xs ih =>
    obtain ⟨ys, h1, h2, h3⟩ := ih (j + 1) fun k hk hk' => hm k (by omega) (by simp only [List.length_cons]; omega)
    have h0 := hm j (Nat.le_refl _) (by simp only [List.length_cons]; omega)
    have e : p + (j : Int) + 1 = p + ((j + 1 : Nat) : Int) := by push_cast; omega
    refine ⟨(if line sz (p + j) = line sz b then g j else x) :: ys, ?_, by simp [h2], ?_⟩
    · simp only [unpackHi, e, h1, h0, bind, Option.bind]
      split <;> simp
    · intro i hi
      cases i with
      | zero => simp only [Nat.add_zero, List.getElem?_cons_zero]; split <;> rfl
      | succ i =>
        have e' : j + (i + 1) = j + 1 + i := by omega
        rw [e', List.getElem?_cons_succ, List.getElem?_cons_succ]
        exact h3 i (by simpa using hi)

/-- Both loads together. -/
theorem micLoad {sz n : Nat} (hs : n * sz = 64) (m : Mem w) (p : Int) (g : Nat → BitVec w) (xs : List (BitVec w)) (hx : xs.length = n)
    (h : At m p n g) :
    ∃ ys, unpackLo sz m p p xs = some ys ∧ ys.length = n ∧ unpackHi sz m (p + n) p ys = some ((List.range n).map g) := by
  obtain ⟨ys, h1, h2, h3⟩ := unpackLo_some sz m p g xs 0 fun k _ hk => h k (by omega)
  obtain ⟨zs, g1, g2, g3⟩ := unpackHi_some sz m p (p + n) g ys 0 fun k _ hk => h k (by omega)
  have e : p + ((0 : Nat) : Int) = p := by simp
  rw [e] at h1 g1
  refine ⟨ys, h1, by omega, ?_⟩
  rw [g1]; congr 1
  apply List.ext_getElem?
  intro i
  by_cases hi : i < n
  · rw [g3 i (by omega), List.getElem?_map, List.getElem?_range hi]
    simp only [Nat.zero_add, Option.map]
    split
    · rfl
    · rename_i hl
      rw [line_next hs] at hl
      rw [h3 i (by omega) (by simpa using (line_cases hs p i hi).resolve_right hl)]
      simp
  · rw [List.getElem?_eq_none (by omega), List.getElem?_eq_none (by simp; omega)]

theorem packLo_eq (sz : Nat) (b q : Int) (xs : List (BitVec w)) :
    packLo sz b q xs = (st q xs).filter fun x => decide (line sz x.1 = line sz b) := by
  induction xs generalizing q with
  | nil => rfl
  | cons x xs ih =>
    simp only [packLo, st, List.filter_cons, ih]
    split <;> simp_all

/-- Both stores together write all elements, but in another order. -/
theorem micStore {sz n : Nat} (hs : n * sz = 64) (p : Int) (xs : List (BitVec w)) (hx : xs.length = n) :
    (packLo sz p p xs ++ packLo sz (p + n) p xs).Perm (st p xs) := by
  rw [packLo_eq, packLo_eq]
  have e : (st p xs).filter (fun x => decide (line sz x.1 = line sz (p + n)))
      = (st p xs).filter (fun x => !decide (line sz x.1 = line sz p)) := by
    apply List.filter_congr
    intro x hx'
    obtain ⟨k, hk, rfl⟩ := mem_st.1 hx'
    rw [line_next hs]
    rcases line_cases hs p k (by omega) with h | h
    · simp only [h, decide_true, Bool.not_true, decide_eq_false_iff_not]; omega
    · simp only [h, decide_true]
      have : ¬ (line sz p + 1 = line sz p) := by omega
      simp [this]
  rw [e]
  exact List.filter_append_perm _ _

theorem micLoad8 {m : Mem 64} {a : M512d} {p q : Int} {g : Nat → BitVec 64} (hq : q = p + 8) (h : At m p 8 g) :
    ∃ b, _mm512_loadunpacklo_pd m a p = some b ∧ _mm512_loadunpackhi_pd m b q =
      some (⟨⟨⟨g 0, g 1⟩, ⟨g 2, g 3⟩⟩, ⟨⟨g 4, g 5⟩, ⟨g 6, g 7⟩⟩⟩ : M512d) := by
  subst hq
  obtain ⟨ys, h1, h2, h3⟩ := micLoad (sz := 8) (n := 8) rfl m p g (lanes a) rfl h
  match ys, h2 with
  | [y0, y1, y2, y3, y4, y5, y6, y7], _ =>
    refine ⟨⟨⟨⟨y0, y1⟩, ⟨y2, y3⟩⟩, ⟨⟨y4, y5⟩, ⟨y6, y7⟩⟩⟩, ?_, ?_⟩
    · rw [_mm512_loadunpacklo_pd, h1]; rfl
    · have e : p + 8 - 8 = p := by omega
      rw [_mm512_loadunpackhi_pd, e]
      exact congrArg (fun x => Option.bind x of8) h3

theorem micStore8 {p q : Int} {a : M512d} (hq : q = p + 8) :
    (packLo 8 p p (lanes a) ++ packLo 8 q (q - 8) (lanes a)).Perm (st p (lanes a)) := by
  subst hq
  have e : p + 8 - 8 = p := by omega
  rw [e]
  exact micStore (sz := 8) (n := 8) rfl p (lanes a) rfl

theorem st_app8 (p : Int) (a : M512d) (xs : List (BitVec 64)) : st p (lanes a ++ xs) = st p (lanes a) ++ st (p + 8) xs := st_append ..

theorem micLoad16 {m : Mem 32} {a : M512} {p q : Int} {g : Nat → BitVec 32} (hq : q = p + 16) (h : At m p 16 g) :
    ∃ b, _mm512_loadunpacklo_ps m a p = some b ∧ _mm512_loadunpackhi_ps m b q =
      some (⟨⟨⟨g 0, g 1, g 2, g 3⟩, ⟨g 4, g 5, g 6, g 7⟩⟩, ⟨⟨g 8, g 9, g 10, g 11⟩, ⟨g 12, g 13, g 14, g 15⟩⟩⟩ : M512) := by
  subst hq
  obtain ⟨ys, h1, h2, h3⟩ := micLoad (sz := 4) (n := 16) rfl m p g (lanes a) rfl h
  match ys, h2 with
  | [y0, y1, y2, y3, y4, y5, y6, y7, y8, y9, y10, y11, y12, y13, y14, y15], _ =>
    refine ⟨⟨⟨⟨y0, y1, y2, y3⟩, ⟨y4, y5, y6, y7⟩⟩, ⟨⟨y8, y9, y10, y11⟩, ⟨y12, y13, y14, y15⟩⟩⟩, ?_, ?_⟩
    · rw [_mm512_loadunpacklo_ps, h1]; rfl
    · have e : p + 16 - 16 = p := by omega
      rw [_mm512_loadunpackhi_ps, e]
      exact congrArg (fun x => Option.bind x of16) h3

theorem micStore16 {p q : Int} {a : M512} (hq : q = p + 16) :
    (packLo 4 p p (lanes a) ++ packLo 4 q (q - 16) (lanes a)).Perm (st p (lanes a)) := by
  subst hq
  have e : p + 16 - 16 = p := by omega
  rw [e]
  exact micStore (sz := 4) (n := 16) rfl p (lanes a) rfl

theorem st_app16 (p : Int) (a : M512) (xs : List (BitVec 32)) : st p (lanes a ++ xs) = st p (lanes a) ++ st (p + 16) xs := st_append ..

theorem unpackLo_tol (sz : Nat) (m : Mem w) (p : Int) (g : Nat → BitVec w) (h0 : m p = some (g 0)) (xs : List (BitVec w)) (j : Nat) :
    ∃ ys, unpackLo sz m p (p + j) xs = some ys ∧ ys.length = xs.length ∧
      ∀ i < xs.length, line sz (p + (j + i : Nat)) = line sz p → m (p + (j + i : Nat)) = some (g (j + i)) → ys[i]? = some (g (j + i)) := by
  induction xs generalizing j with
  | nil => exact ⟨[], rfl, rfl, fun i hi => absurd hi (Nat.not_lt_zero i)⟩
  | cons x xs ih =>
    obtain ⟨ys, h1, h2, h3⟩ := ih (j + 1)
    have e : p + (j : Int) + 1 = p + ((j + 1 : Nat) : Int) := by push_cast; omega
    have hz : (if p + (j : Int) = p then m (p + j) else some ((m (p + j)).getD 0)) = some ((m (p + j)).getD 0) := by
      split
      · rename_i hj; rw [hj, h0]; rfl
      · rfl
    refine ⟨(if line sz (p + j) = line sz p then (m (p + j)).getD 0 else x) :: ys, ?_, by simp [h2], ?_⟩
    · simp only [unpackLo, e, h1, hz, bind, Option.bind]
      split <;> simp
    · intro i hi hl hm
      cases i with
      | zero =>
        have hl : line sz (p + (j : Int)) = line sz p := hl
        have hm : m (p + (j : Int)) = some (g j) := hm
        simp [hl, hm]
      | succ i =>
        have e' : j + (i + 1) = j + 1 + i := by omega
        rw [e'] at hl hm ⊢
        rw [List.getElem?_cons_succ]
        exact h3 i (by simpa using hi) hl hm

/-- Eight offsets which do not cross a cache line. -/
theorem micOffsets {m : Mem 32} {a : M512i} {p : Int} {g : Nat → BitVec 32} (ha : aligned 4 p 32 = true) (h : At m p 8 g) :
    ∃ b, _mm512_loadunpacklo_epi32 m a p = some ⟨⟨⟨g 0, g 1, g 2, g 3⟩, ⟨g 4, g 5, g 6, g 7⟩⟩, b⟩ := by
  have h0 : m p = some (g 0) := by simpa using h 0 (by decide)
  obtain ⟨ys, h1, h2, h3⟩ := unpackLo_tol 4 m p g h0 (lanes a) 0
  have hp : (32 : Int) ∣ p * 4 := (aligned_iff 4 p 32).1 ha
  have hl : ∀ i : Nat, i < 8 → ys[i]? = some (g i) := by
    intro i hi
    have := h3 i (by have : (lanes a).length = 16 := rfl
                     omega) ?_ ?_
    · simpa using this
    · unfold line; push_cast; omega
    · simpa using h i hi
  have e : p + ((0 : Nat) : Int) = p := by simp
  rw [e] at h1
  match ys, h2 with
  | [y0, y1, y2, y3, y4, y5, y6, y7, y8, y9, y10, y11, y12, y13, y14, y15], _ =>
    refine ⟨⟨⟨y8, y9, y10, y11⟩, ⟨y12, y13, y14, y15⟩⟩, ?_⟩
    rw [_mm512_loadunpacklo_epi32, h1,
      ← Option.some.inj (hl 0 (by decide)), ← Option.some.inj (hl 1 (by decide)), ← Option.some.inj (hl 2 (by decide)),
      ← Option.some.inj (hl 3 (by decide)), ← Option.some.inj (hl 4 (by decide)), ← Option.some.inj (hl 5 (by decide)),
      ← Option.some.inj (hl 6 (by decide)), ← Option.some.inj (hl 7 (by decide))]
    rfl

/-! ### QPX -/

theorem qpxAddr {p : Int} (h : aligned (64 / 8) p 32 = true) : p % 4 = 0 := by
  have h : (32 : Int) ∣ p * 8 := (aligned_iff 8 p 32).1 h
  omega

end

end LFA.SV
