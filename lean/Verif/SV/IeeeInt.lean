/-
  What integer division and square roots computed by means of floating point numbers return, given operations which conform to IEEE 754.
-/
import Verif.SV.Ieee
import Mathlib.Data.Nat.Sqrt
import Mathlib.Data.Rat.Floor
import Mathlib.Data.Set.Finite.Lemmas
set_option autoImplicit false

namespace LFA.SV
open Fmt

/-- Integers up to 2 ^ 24 are numbers of single precision. -/
theorem single_int (z : ℤ) (hz : z.natAbs ≤ 2 ^ 24) : ∃ x : BitVec 32, single.finite x ∧ single.val x = z := by
  have pos : ∀ n : Nat, n ≤ 2 ^ 24 → ∃ x : BitVec 32, single.finite x ∧ single.val x = n := by
    intro n hn
    rcases Nat.lt_or_eq_of_le hn with h | h
    · obtain ⟨x, hx, e⟩ := exists_val (f := single) (w := 32) rfl n 0 h (by decide) (by decide)
      exact ⟨x, hx, by rw [e]; simp⟩
    · obtain ⟨x, hx, e⟩ := exists_val (f := single) (w := 32) rfl (2 ^ 23) 1 (by decide) (by decide) (by decide)
      exact ⟨x, hx, by rw [e, h]; norm_num⟩
  obtain ⟨n, h | h⟩ := z.eq_nat_or_neg
  · obtain ⟨x, hx, e⟩ := pos n (by omega)
    exact ⟨x, hx, by rw [e, h]; push_cast; rfl⟩
  · obtain ⟨x, hx, e⟩ := pos n (by omega)
    obtain ⟨y, hy, e'⟩ := exists_neg (f := single) (w := 32) rfl x hx
    exact ⟨y, hy, by rw [e', e, h]; push_cast; rfl⟩

theorem Conforms.ofInt_exact {F : FOps 32} (C : Conforms single F) (a : BitVec 32) (ha : a.toInt.natAbs ≤ 2 ^ 24) :
    single.finite (F.ofInt a) ∧ single.val (F.ofInt a) = a.toInt := by
  obtain ⟨x, hx, e⟩ := single_int a.toInt ha
  exact ⟨(C.ofInt a).1, (C.ofInt a).exact hx e⟩

theorem single_huge : (2 : ℚ) ^ 24 ≤ single.huge := by
  simp only [huge, single, bias]; norm_num

/-- Quotient of two integers up to 2 ^ 24, rounded to single precision. -/
theorem Conforms.div_near {F : FOps 32} (C : Conforms single F) (a b : BitVec 32) (ha : a.toInt.natAbs ≤ 2 ^ 24)
    (hb : b.toInt.natAbs ≤ 2 ^ 24) (h0 : b.toInt ≠ 0) :
    single.Nearest ((a.toInt : ℚ) / b.toInt) (F.div (F.ofInt a) (F.ofInt b)) := by
  obtain ⟨fa, ea⟩ := C.ofInt_exact a ha
  obtain ⟨fb, eb⟩ := C.ofInt_exact b hb
  have hbq : (b.toInt : ℚ) ≠ 0 := by exact_mod_cast h0
  have := C.div (F.ofInt a) (F.ofInt b) fa fb (by rw [eb]; exact hbq)
  rw [ea, eb] at this
  refine this (le_trans ?_ single_huge)
  rw [abs_div]
  have h1 : |(a.toInt : ℚ)| ≤ 2 ^ 24 := by
    rw [← Int.cast_abs, Int.abs_eq_natAbs]; exact_mod_cast ha
  have h2 : (1 : ℚ) ≤ |(b.toInt : ℚ)| := by
    rw [← Int.cast_abs]; exact_mod_cast Int.one_le_abs h0
  exact le_trans (div_le_self (abs_nonneg _) h2) h1

theorem inInt_small {i : ℤ} (h : i.natAbs ≤ 2 ^ 24) : inInt i = true := by
  simp only [inInt, Bool.and_eq_true, decide_eq_true_eq]; omega

/-- Division of integers by means of numbers of single precision. -/
theorem Conforms.div_trunc {F : FOps 32} (C : Conforms single F) (a b : BitVec 32) (ha : a.toInt.natAbs ≤ 2 ^ 24)
    (hb : b.toInt.natAbs ≤ 2 ^ 24) (h0 : b.toInt ≠ 0) :
    (F.toIntT (F.div (F.ofInt a) (F.ofInt b))).toInt = a.toInt.tdiv b.toInt := by
  obtain ⟨fd, nd⟩ := C.div_near a b ha hb h0
  have hle : (a.toInt.tdiv b.toInt).natAbs ≤ 2 ^ 24 := by
    rw [Int.natAbs_tdiv]; exact le_trans (Nat.div_le_self _ _) ha
  refine C.toIntT _ fd _ (inInt_small hle) ?_
  generalize F.div (F.ofInt a) (F.ofInt b) = q at *
  generalize a.toInt = A at *
  generalize b.toInt = B at *
  have hB0 : 0 < B.natAbs := by omega
  obtain ⟨n, hn⟩ : ∃ n, A.natAbs = n := ⟨_, rfl⟩
  obtain ⟨d, hd⟩ : ∃ d, B.natAbs = d := ⟨_, rfl⟩
  rw [hn] at ha
  rw [hd] at hb hB0
  have cases : (A : ℚ) / B = (n : ℚ) / d ∧ A.tdiv B = ((n / d : Nat) : ℤ) ∨ (A : ℚ) / B = -((n : ℚ) / d) ∧ A.tdiv B = -((n / d : Nat) : ℤ) := by
    have hA : A = n ∨ A = -n := by omega
    have hB : B = d ∨ B = -d := by omega
    rcases hA with h | h <;> rcases hB with h' | h' <;> rw [h, h']
    · exact .inl ⟨by push_cast; rfl, (Int.ofNat_tdiv _ _).symm⟩
    · exact .inr ⟨by push_cast; rw [div_neg], by rw [Int.tdiv_neg, Int.ofNat_tdiv]⟩
    · exact .inr ⟨by push_cast; rw [neg_div], by rw [Int.neg_tdiv, Int.ofNat_tdiv]⟩
    · exact .inl ⟨by push_cast; rw [neg_div_neg_eq], by rw [Int.neg_tdiv, Int.tdiv_neg, neg_neg, Int.ofNat_tdiv]⟩
  have k0 : (0 : ℚ) ≤ ((n / d : Nat) : ℚ) := Nat.cast_nonneg _
  rcases cases with ⟨e1, e2⟩ | ⟨e1, e2⟩
  · rw [e1] at nd
    obtain ⟨l, u⟩ := nearest_floor (single.val q) n d ha hb hB0 nd
    rw [e2]
    left
    rw [Int.cast_natCast]
    exact ⟨le_trans k0 l, l, u⟩
  · rw [e1] at nd
    obtain ⟨l, u⟩ := nearest_floor (-single.val q) n d ha hb hB0 (fun x hx => by
      obtain ⟨y, hy, e⟩ := exists_neg (f := single) (w := 32) rfl x hx
      have := nd y hy
      rw [e] at this
      rw [← abs_neg, show -(-single.val q - (n : ℚ) / d) = single.val q - -((n : ℚ) / d) by ring]
      rw [← abs_neg (single.val x - _), show -(single.val x - (n : ℚ) / d) = -single.val x - -((n : ℚ) / d) by ring]
      exact this)
    rw [e2]
    right
    rw [Int.cast_neg, Int.cast_natCast]
    exact ⟨by linarith, by linarith, by linarith⟩

/-- An integer above 2 ^ 24 does not become less than that, nor change its sign, when it is converted. -/
theorem Conforms.ofInt_big {F : FOps 32} (C : Conforms single F) (b : BitVec 32) (hb : 2 ^ 24 < b.toInt.natAbs) :
    single.finite (F.ofInt b) ∧ 2 ^ 24 ≤ |single.val (F.ofInt b)| := by
  obtain ⟨f1, f2⟩ := C.ofInt b
  refine ⟨f1, ?_⟩
  generalize F.ofInt b = q at *
  generalize b.toInt = B at *
  have habs : ((B.natAbs : ℤ) : ℚ) = |(B : ℚ)| := by rw [Int.natCast_natAbs, Int.cast_abs]
  have hB : (2 : ℚ) ^ 24 < |(B : ℚ)| := by
    rw [← habs]; exact_mod_cast hb
  have hp : (2 : ℚ) ^ 24 = 16777216 := by norm_num
  rw [hp] at hB ⊢
  rcases le_total 0 (B : ℚ) with h | h
  · rw [abs_of_nonneg h] at hB
    obtain ⟨y, hy, e⟩ := single_int (2 ^ 24) (by decide)
    have := f2 y hy
    rw [e] at this
    push_cast at this
    rw [abs_of_nonpos (show (16777216 : ℚ) - B ≤ 0 by linarith)] at this
    have h3 : (16777216 : ℚ) ≤ single.val q := by
      have := neg_abs_le (single.val q - B)
      linarith
    exact le_trans h3 (le_abs_self _)
  · rw [abs_of_nonpos h] at hB
    obtain ⟨y, hy, e⟩ := single_int (-2 ^ 24) (by decide)
    have := f2 y hy
    rw [e] at this
    push_cast at this
    rw [abs_of_nonneg (show (0 : ℚ) ≤ -16777216 - B by linarith)] at this
    have h3 : single.val q ≤ -16777216 := by
      have := le_abs_self (single.val q - B)
      linarith
    exact le_trans (by linarith) (neg_le_abs _)

/-- A number of single precision which is nearest to a number between -1 and 1, but not too close to these, is between them. -/
theorem nearest_below_one {q : ℚ} {x : BitVec 32} (h : single.Nearest q x) (hq : |q| ≤ 1 - 1 / 2 ^ 24) : |single.val x| < 1 := by
  obtain ⟨y, hy, e⟩ := exists_val (f := single) (w := 32) rfl (2 ^ 24 - 1) (-24) (by decide) (by decide) (by decide)
  obtain ⟨z, hz, e'⟩ := exists_neg (f := single) (w := 32) rfl y hy
  have hv : single.val y = 1 - 1 / 2 ^ 24 := by rw [e]; norm_num
  have h1 := h.2 y hy
  have h2 := h.2 z hz
  rw [e'] at h2
  rw [hv] at h1 h2
  obtain ⟨a, b⟩ := abs_le.1 hq
  rw [abs_of_nonneg (show 0 ≤ 1 - 1 / 2 ^ 24 - q by linarith)] at h1
  rw [abs_of_nonpos (show -(1 - 1 / 2 ^ 24) - q ≤ 0 by linarith)] at h2
  obtain ⟨c1, c2⟩ := abs_le.1 h1
  obtain ⟨d1, d2⟩ := abs_le.1 h2
  rw [abs_lt]
  have : (0 : ℚ) < 1 / 2 ^ 24 := by norm_num
  constructor <;> linarith

/-- Division by an integer above 2 ^ 24. -/
theorem Conforms.div_big {F : FOps 32} (C : Conforms single F) (a b : BitVec 32) (ha : a.toInt.natAbs < 2 ^ 24)
    (hb : 2 ^ 24 < b.toInt.natAbs) : (F.toIntT (F.div (F.ofInt a) (F.ofInt b))).toInt = a.toInt.tdiv b.toInt := by
  obtain ⟨f1, e1⟩ := C.ofInt_exact a (by omega)
  obtain ⟨f2, e2⟩ := C.ofInt_big b hb
  have hY : (0 : ℚ) < |single.val (F.ofInt b)| := lt_of_lt_of_le (by norm_num) e2
  have hX : |single.val (F.ofInt a)| ≤ 2 ^ 24 - 1 := by
    rw [e1]
    have h1 : ((a.toInt.natAbs : ℤ) : ℚ) = |(a.toInt : ℚ)| := by rw [Int.natCast_natAbs, Int.cast_abs]
    rw [← h1]
    have : (a.toInt.natAbs : ℤ) ≤ 2 ^ 24 - 1 := by omega
    exact_mod_cast this
  have hq : |single.val (F.ofInt a) / single.val (F.ofInt b)| ≤ 1 - 1 / 2 ^ 24 := by
    rw [abs_div, div_le_iff₀ hY]
    have : (1 - 1 / 2 ^ 24 : ℚ) * 2 ^ 24 ≤ (1 - 1 / 2 ^ 24) * |single.val (F.ofInt b)| :=
      mul_le_mul_of_nonneg_left e2 (by norm_num)
    have e : (1 - 1 / 2 ^ 24 : ℚ) * 2 ^ 24 = 2 ^ 24 - 1 := by norm_num
    linarith
  have hn := C.div _ _ f1 f2 (abs_pos.1 hY) (le_trans hq (le_trans (by norm_num) single_huge))
  have hlt := abs_lt.1 (nearest_below_one hn hq)
  have h0 : a.toInt.tdiv b.toInt = 0 := by
    rw [← Int.natAbs_eq_zero, Int.natAbs_tdiv]
    exact Nat.div_eq_of_lt (by omega)
  rw [h0]
  refine C.toIntT _ hn.1 0 (by decide) ?_
  push_cast
  rcases le_total 0 (single.val (F.div (F.ofInt a) (F.ofInt b))) with h | h
  · exact .inl ⟨h, h, by linarith [hlt.2]⟩
  · exact .inr ⟨h, by linarith [hlt.1], h⟩

/-- Division of integers by means of numbers of single precision, as far as it is exact for all divisors. -/
theorem Conforms.div_any {F : FOps 32} (C : Conforms single F) (a b : BitVec 32) (ha : a.toInt.natAbs ≤ 2 ^ 24)
    (hb : a.toInt.natAbs < 2 ^ 24 ∨ b.toInt.natAbs ≤ 2 ^ 24) (h0 : b.toInt ≠ 0) :
    (F.toIntT (F.div (F.ofInt a) (F.ofInt b))).toInt = a.toInt.tdiv b.toInt := by
  by_cases h : b.toInt.natAbs ≤ 2 ^ 24
  · exact C.div_trunc a b ha h h0
  · exact C.div_big a b (hb.resolve_right h) (by omega)

/-- Division by a divisor, rounded in any way. -/
theorem Conforms.div_exact {F : FOps 32} (C : Conforms single F) (a b : BitVec 32) (ha : a.toInt.natAbs ≤ 2 ^ 24)
    (hb : b.toInt.natAbs ≤ 2 ^ 24) (h0 : b.toInt ≠ 0) (hd : b.toInt ∣ a.toInt) :
    (F.toIntR (F.div (F.ofInt a) (F.ofInt b))).toInt = a.toInt.tdiv b.toInt := by
  have n := C.div_near a b ha hb h0
  have hle : (a.toInt.tdiv b.toInt).natAbs ≤ 2 ^ 24 := by
    rw [Int.natAbs_tdiv]; exact le_trans (Nat.div_le_self _ _) ha
  obtain ⟨x, hx, ex⟩ := single_int _ hle
  have hq : (a.toInt : ℚ) / b.toInt = (a.toInt.tdiv b.toInt : ℤ) := by
    have hbq : (b.toInt : ℚ) ≠ 0 := by exact_mod_cast h0
    rw [div_eq_iff hbq]
    exact_mod_cast (Int.tdiv_mul_cancel hd).symm
  rw [hq] at n
  refine C.toIntR _ n.1 _ (inInt_small hle) ?_
  rw [n.exact hx ex, sub_self, abs_zero]
  norm_num

/-- Zero divided by any integer. -/
theorem Conforms.div_zero_left {F : FOps 32} (C : Conforms single F) (a b : BitVec 32) (ha : a.toInt = 0) (h0 : b.toInt ≠ 0) :
    (F.toIntR (F.div (F.ofInt a) (F.ofInt b))).toInt = 0 := by
  obtain ⟨f1, e1⟩ := C.ofInt_exact a (by rw [ha]; decide)
  have hb : single.finite (F.ofInt b) ∧ single.val (F.ofInt b) ≠ 0 := by
    by_cases h : b.toInt.natAbs ≤ 2 ^ 24
    · obtain ⟨f2, e2⟩ := C.ofInt_exact b h
      exact ⟨f2, by rw [e2]; exact_mod_cast h0⟩
    · obtain ⟨f2, e2⟩ := C.ofInt_big b (by omega)
      exact ⟨f2, abs_pos.1 (lt_of_lt_of_le (by norm_num) e2)⟩
  have n := C.div _ _ f1 hb.1 hb.2 (by
    rw [e1, ha, Int.cast_zero, zero_div, abs_zero]
    exact le_trans (by norm_num) single_huge)
  rw [e1, ha, Int.cast_zero, zero_div] at n
  obtain ⟨x, hx, ex⟩ := single_int 0 (by decide)
  refine C.toIntR _ n.1 0 (by decide) ?_
  rw [n.exact hx (by rw [ex, Int.cast_zero]), Int.cast_zero, sub_self, abs_zero]
  norm_num

/-- Division by any divisor, rounded in any way. -/
theorem Conforms.div_exact_any {F : FOps 32} (C : Conforms single F) (a b : BitVec 32) (ha : a.toInt.natAbs ≤ 2 ^ 24)
    (h0 : b.toInt ≠ 0) (hd : b.toInt ∣ a.toInt) :
    (F.toIntR (F.div (F.ofInt a) (F.ofInt b))).toInt = a.toInt.tdiv b.toInt := by
  by_cases h : a.toInt = 0
  · rw [C.div_zero_left a b h h0, h, Int.zero_tdiv]
  · refine C.div_exact a b ha (le_trans ?_ ha) h0 hd
    exact Nat.le_of_dvd (by omega) (Int.natAbs_dvd_natAbs.2 hd)

/-- Numbers of single precision not less than 2 ^ 24 are even integers. -/
theorem single_even (x : BitVec 32) (h : 2 ^ 24 ≤ single.val x) : ∃ k : ℤ, single.val x = 2 * k := by
  have hman : single.man x < 2 ^ 23 := Nat.mod_lt _ (by decide)
  have hmag : 0 ≤ single.mag x := by
    unfold mag
    split
    · exact mul_nonneg (Nat.cast_nonneg _) (zpow_nonneg (by norm_num) _)
    · exact mul_nonneg (by positivity) (zpow_nonneg (by norm_num) _)
  by_cases hn : single.neg x = true
  · rw [val, if_pos hn] at h; linarith
  rw [val, if_neg hn] at h ⊢
  have hmq : (single.man x : ℚ) ≤ 2 ^ 23 - 1 := by
    have : ((single.man x + 1 : Nat) : ℚ) ≤ 2 ^ 23 := by exact_mod_cast hman
    push_cast at this; linarith
  by_cases he : single.ex x ≤ 150
  · exfalso
    unfold mag at h
    split at h
    · have h1 : (2 : ℚ) ^ (1 - (single.bias : ℤ) - single.m) ≤ 1 := zpow_le_one_of_nonpos₀ (by norm_num) (by decide)
      have h2 : (single.man x : ℚ) * 2 ^ (1 - (single.bias : ℤ) - single.m) ≤ single.man x * 1 :=
        mul_le_mul_of_nonneg_left h1 (Nat.cast_nonneg _)
      linarith
    · have h1 : (2 : ℚ) ^ ((single.ex x : ℤ) - single.bias - single.m) ≤ 1 := by
        refine zpow_le_one_of_nonpos₀ (by norm_num) ?_
        have : (single.bias : ℤ) = 127 := rfl
        have : (single.m : ℤ) = 23 := rfl
        omega
      have h2 : (2 ^ single.m + single.man x : ℚ) * 2 ^ ((single.ex x : ℤ) - single.bias - single.m) ≤ (2 ^ single.m + single.man x) * 1 :=
        mul_le_mul_of_nonneg_left h1 (by positivity)
      have h3 : (2 : ℚ) ^ single.m = 2 ^ 23 := rfl
      rw [h3] at h h2
      linarith
  · obtain ⟨d, hd⟩ : ∃ d : Nat, single.ex x = 151 + d := ⟨single.ex x - 151, by omega⟩
    refine ⟨(2 ^ 23 + single.man x) * 2 ^ d, ?_⟩
    rw [mag, if_neg (by omega)]
    have : ((single.ex x : ℤ) - single.bias - single.m) = ((d + 1 : Nat) : ℤ) := by
      have : (single.bias : ℤ) = 127 := rfl
      have : (single.m : ℤ) = 23 := rfl
      omega
    rw [this, zpow_natCast]
    have h3 : (2 : ℚ) ^ single.m = 2 ^ 23 := rfl
    rw [h3]
    push_cast
    ring

/-- Division of odd integers above 2 ^ 24 by one. -/
theorem Conforms.div_one_odd {F : FOps 32} (C : Conforms single F) (a b : BitVec 32) (h1 : 2 ^ 24 < a.toInt) (h2 : a.toInt < 2 ^ 25)
    (ho : a.toInt % 2 = 1) (hb : b.toInt = 1) : (F.toIntT (F.div (F.ofInt a) (F.ofInt b))).toInt ≠ a.toInt := by
  obtain ⟨fb, eb⟩ := C.ofInt_exact b (by omega)
  obtain ⟨fa, na⟩ := C.ofInt a
  obtain ⟨k, hk⟩ : ∃ k : Nat, a.toInt = 2 * k + 1 := ⟨(a.toInt / 2).toNat, by omega⟩
  -- the neighbours
  obtain ⟨x, hx, ex⟩ := exists_val (f := single) (w := 32) rfl k 1
    (by simp only [single]; omega) (by decide) (by decide)
  have d1 := na x hx
  rw [ex, hk] at d1
  have d2 : |single.val (F.ofInt a) - ((2 * (k : ℤ) + 1 : ℤ) : ℚ)| ≤ 1 := by
    refine le_trans d1 ?_
    rw [abs_le]; push_cast; constructor <;> linarith
  have d3 := abs_le.1 d2
  push_cast at d3
  have hkq : (2 : ℚ) ^ 24 ≤ 2 * k := by
    have : (2 : ℤ) ^ 24 ≤ 2 * k := by omega
    exact_mod_cast this
  obtain ⟨j, hj⟩ := single_even (F.ofInt a) (by linarith [d3.1])
  have hkq2 : (k : ℚ) < 2 ^ 24 := by
    have : (k : ℤ) < 2 ^ 24 := by omega
    exact_mod_cast this
  have eb1 : single.val (F.ofInt b) = 1 := by rw [eb, hb]; norm_num
  obtain ⟨fd, nd⟩ := C.div (F.ofInt a) (F.ofInt b) fa fb (by rw [eb1]; norm_num) (by
    rw [eb1, div_one]
    have : (2 : ℚ) ^ 26 ≤ single.huge := by simp only [huge, single, bias]; norm_num
    refine le_trans ?_ this
    rw [abs_le]; constructor <;> linarith [d3.1, d3.2])
  have ed : single.val (F.div (F.ofInt a) (F.ofInt b)) = 2 * j := by
    have := Fmt.Nearest.exact ⟨fd, nd⟩ fa (by rw [eb1, div_one])
    rw [this, eb1, div_one, hj]
  rw [hj] at d3
  have j1 : (k : ℤ) ≤ j := by
    have : (2 * k : ℚ) ≤ 2 * j := by linarith [d3.1]
    have : (k : ℚ) ≤ j := by linarith
    exact_mod_cast this
  have j2 : j ≤ k + 1 := by
    have : (j : ℚ) ≤ k + 1 := by linarith [d3.2]
    exact_mod_cast this
  rw [C.toIntT _ fd (2 * j) (by simp only [inInt, Bool.and_eq_true, decide_eq_true_eq]; omega) (.inl ?_)]
  · omega
  · rw [ed]
    have : (0 : ℚ) ≤ k := Nat.cast_nonneg _
    have : (k : ℚ) ≤ j := by exact_mod_cast j1
    push_cast
    exact ⟨by linarith, le_refl _, by linarith⟩

/-- 2 / 3, rounded to nearest. -/
theorem Conforms.div_round_false {F : FOps 32} (C : Conforms single F) :
    (F.toIntR (F.div (F.ofInt 2) (F.ofInt 3))).toInt = 1 := by
  obtain ⟨fd, nd⟩ := C.div_near 2 3 (by decide) (by decide) (by decide)
  obtain ⟨x, hx, ex⟩ := exists_val (f := single) (w := 32) rfl 11 (-4) (by decide) (by decide) (by decide)
  have h := nd x hx
  rw [ex] at h
  have e2 : ((2 : BitVec 32).toInt : ℚ) = 2 := by norm_num [show (2 : BitVec 32).toInt = 2 from rfl]
  have e3 : ((3 : BitVec 32).toInt : ℚ) = 3 := by norm_num [show (3 : BitVec 32).toInt = 3 from rfl]
  rw [e2, e3] at h
  have e : |((11 : Nat) : ℚ) * 2 ^ (-4 : ℤ) - 2 / 3| = 1 / 48 := by norm_num
  rw [e] at h
  have h := abs_le.1 h
  refine C.toIntR _ fd 1 (by decide) ?_
  rw [abs_lt, Int.cast_one]
  constructor <;> linarith [h.1, h.2]

/-! ### Square roots -/

theorem sqrt_le_nat (n : Nat) : n.sqrt * n.sqrt ≤ n ∧ n < (n.sqrt + 1) * (n.sqrt + 1) := ⟨Nat.sqrt_le n, Nat.lt_succ_sqrt n⟩

/-- Integers are numbers of double precision. -/
theorem Conforms.ofInt_exact64 {F : FOps 64} (C : Conforms double F) (a : BitVec 32) (ha : 0 ≤ a.toInt) :
    double.finite (F.ofInt a) ∧ double.val (F.ofInt a) = a.toInt := by
  have : a.toInt < 2 ^ 31 := BitVec.toInt_lt
  obtain ⟨x, hx, e⟩ := exists_val (f := double) (w := 64) rfl a.toInt.toNat 0
    (by simp only [double]; omega) (by decide) (by decide)
  refine ⟨(C.ofInt a).1, (C.ofInt a).exact hx ?_⟩
  rw [e, zpow_zero, mul_one]
  exact_mod_cast Int.toNat_of_nonneg ha

/-- Integral square roots by means of double precision. -/
theorem Conforms.sqrt_trunc {F : FOps 64} (C : Conforms double F) (a : BitVec 32) (ha : 0 ≤ a.toInt) :
    (F.toIntT (F.sqrt (F.ofInt a))).toInt = a.toInt.toNat.sqrt := by
  obtain ⟨fa, ea⟩ := C.ofInt_exact64 a ha
  have hlt : a.toInt < 2 ^ 31 := BitVec.toInt_lt
  obtain ⟨n, hn⟩ : ∃ n : Nat, a.toInt = n := ⟨a.toInt.toNat, by omega⟩
  rw [hn] at ea ⊢
  obtain ⟨s1, s2⟩ := sqrt_le_nat n
  rw [Int.toNat_natCast]
  push_cast at ea
  obtain ⟨fs, ps, H⟩ := C.sqrt _ fa (by rw [ea]; exact Nat.cast_nonneg _)
  rw [ea] at H
  generalize n.sqrt = k at *
  have hk : k < 46341 := by
    by_contra hc
    have : 46341 * 46341 ≤ k * k := Nat.mul_le_mul (by omega) (by omega)
    omega
  obtain ⟨x, hx, ex⟩ := exists_val (f := double) (w := 64) rfl k 0 (by simp only [double]; omega) (by decide) (by decide)
  obtain ⟨y, hy, ey⟩ := exists_val (f := double) (w := 64) rfl ((k + 1) * 2 ^ 36 - 1) (-36) (by simp only [double]; omega) (by decide)
    (by decide)
  rw [zpow_zero, mul_one] at ex
  have ey' : double.val y = k + 1 - 1 / 2 ^ 36 := by
    rw [ey, Nat.cast_sub (by omega)]
    push_cast
    norm_num
    ring
  have k0 : (0 : ℚ) ≤ k := Nat.cast_nonneg _
  have b1 : (k : ℚ) ≤ double.val (F.sqrt (F.ofInt a)) := by
    rw [← ex]
    refine (H x hx (by rw [ex]; exact k0)).1 ?_
    rw [ex, sq]; exact_mod_cast s1
  have b2 : double.val (F.sqrt (F.ofInt a)) ≤ k + 1 - 1 / 2 ^ 36 := by
    rw [← ey']
    refine (H y hy (by rw [ey']; norm_num; linarith)).2 ?_
    rw [ey']
    have h1 : (n : ℚ) ≤ (k + 1) * (k + 1) - 1 := by
      have : ((n + 1 : Nat) : ℚ) ≤ ((k + 1) * (k + 1) : Nat) := by exact_mod_cast s2
      push_cast at this; linarith
    have h2 : (k : ℚ) ≤ 46340 := by exact_mod_cast (by omega : k ≤ 46340)
    have e : ((k : ℚ) + 1 - 1 / 2 ^ 36) ^ 2 = (k + 1) * (k + 1) - (2 * (k + 1)) / 2 ^ 36 + 1 / 2 ^ 72 := by ring
    rw [e]
    have : (2 * ((k : ℚ) + 1)) / 2 ^ 36 ≤ 1 := by
      rw [div_le_one (by positivity)]; norm_num; linarith
    have : (0 : ℚ) < 1 / 2 ^ 72 := by positivity
    linarith
  refine C.toIntT _ fs _ ?_ (.inl ⟨ps, ?_, ?_⟩)
  · simp only [inInt, Bool.and_eq_true, decide_eq_true_eq]; omega
  · exact_mod_cast b1
  · have : (0 : ℚ) < 1 / 2 ^ 36 := by positivity
    push_cast
    linarith

/-- Integral square roots by means of single precision are rounded to nearest, for integers below 2 ^ 20. -/
theorem Conforms.sqrt_round {F : FOps 32} (C : Conforms single F) (a : BitVec 32) (ha : 0 ≤ a.toInt) (hb : a.toInt < 2 ^ 20) :
    (F.toIntR (F.sqrt (F.ofInt a))).toInt =
      if a.toInt.toNat ≤ a.toInt.toNat.sqrt * a.toInt.toNat.sqrt + a.toInt.toNat.sqrt then (a.toInt.toNat.sqrt : ℤ)
      else a.toInt.toNat.sqrt + 1 := by
  obtain ⟨fa, ea⟩ := C.ofInt_exact a (by omega)
  obtain ⟨n, hn⟩ : ∃ n : Nat, a.toInt = n := ⟨a.toInt.toNat, by omega⟩
  rw [hn] at ea ⊢
  obtain ⟨s1, s2⟩ := sqrt_le_nat n
  rw [Int.toNat_natCast]
  push_cast at ea
  obtain ⟨fs, ps, H⟩ := C.sqrt _ fa (by rw [ea]; exact Nat.cast_nonneg _)
  rw [ea] at H
  generalize n.sqrt = k at *
  have hk : k < 1024 := by
    by_contra hc
    have : 1024 * 1024 ≤ k * k := Nat.mul_le_mul (by omega) (by omega)
    omega
  have k0 : (0 : ℚ) ≤ k := Nat.cast_nonneg _
  have h2 : (k : ℚ) ≤ 1023 := by exact_mod_cast (by omega : k ≤ 1023)
  obtain ⟨x, hx, ex⟩ := exists_val (f := single) (w := 32) rfl k 0 (by simp only [single]; omega) (by decide) (by decide)
  obtain ⟨x', hx', ex'⟩ := exists_val (f := single) (w := 32) rfl (k + 1) 0 (by simp only [single]; omega) (by decide) (by decide)
  obtain ⟨y, hy, ey⟩ := exists_val (f := single) (w := 32) rfl ((2 * k + 1) * 2 ^ 13 - 1) (-14) (by simp only [single]; omega) (by decide)
    (by decide)
  obtain ⟨y', hy', ey'⟩ := exists_val (f := single) (w := 32) rfl ((2 * k + 1) * 2 ^ 13 + 1) (-14) (by simp only [single]; omega) (by decide)
    (by decide)
  rw [zpow_zero, mul_one] at ex ex'
  have ez : (2 : ℚ) ^ (-14 : ℤ) = 1 / 16384 := by norm_num
  have ey1 : single.val y = k + 1 / 2 - 1 / 16384 := by
    rw [ey, Nat.cast_sub (by omega), ez]
    push_cast
    ring
  have ey2 : single.val y' = k + 1 / 2 + 1 / 16384 := by
    rw [ey', ez]
    push_cast
    ring
  have b1 : (k : ℚ) ≤ single.val (F.sqrt (F.ofInt a)) := by
    rw [← ex]
    refine (H x hx (by rw [ex]; exact k0)).1 ?_
    rw [ex, sq]; exact_mod_cast s1
  have b2 : single.val (F.sqrt (F.ofInt a)) ≤ k + 1 := by
    have e : single.val x' = (k : ℚ) + 1 := by rw [ex']; push_cast; rfl
    rw [← e]
    refine (H x' hx' (by rw [e]; linarith)).2 ?_
    rw [e, sq]; exact_mod_cast le_of_lt s2
  split
  · next hle =>
    have b3 : single.val (F.sqrt (F.ofInt a)) ≤ k + 1 / 2 - 1 / 16384 := by
      rw [← ey1]
      refine (H y hy (by rw [ey1]; linarith)).2 ?_
      have h1 : (n : ℚ) ≤ k * k + k := by exact_mod_cast hle
      rw [ey1, show ((k : ℚ) + 1 / 2 - 1 / 16384) ^ 2 = k * k + k + 1 / 4 - (2 * k + 1) / 16384 + 1 / 16384 ^ 2 by ring]
      have : (2 * (k : ℚ) + 1) / 16384 ≤ 1 / 4 := by rw [div_le_iff₀ (by norm_num)]; linarith
      have : (0 : ℚ) < 1 / 16384 ^ 2 := by positivity
      linarith
    refine C.toIntR _ fs _ (inInt_small (by omega)) ?_
    rw [abs_lt]; push_cast; constructor <;> linarith
  · next hgt =>
    have b3 : (k : ℚ) + 1 / 2 + 1 / 16384 ≤ single.val (F.sqrt (F.ofInt a)) := by
      rw [← ey2]
      refine (H y' hy' (by rw [ey2]; linarith)).1 ?_
      have h1 : (k : ℚ) * k + k + 1 ≤ n := by exact_mod_cast (by omega : k * k + k + 1 ≤ n)
      rw [ey2, show ((k : ℚ) + 1 / 2 + 1 / 16384) ^ 2 = k * k + k + 1 / 4 + (2 * k + 1) / 16384 + 1 / 16384 ^ 2 by ring]
      have : (2 * (k : ℚ) + 1) / 16384 ≤ 1 / 4 := by rw [div_le_iff₀ (by norm_num)]; linarith
      have : (1 : ℚ) / 16384 ^ 2 ≤ 1 / 4 := by norm_num
      linarith
    refine C.toIntR _ fs _ (inInt_small (by omega)) ?_
    rw [abs_lt]; push_cast; constructor <;> linarith

/-! ### There are such operations -/

theorem exists_nearest {f : Fmt} {w : Nat} (hz : ∃ x : BitVec w, f.finite x) (q : ℚ) : ∃ x : BitVec w, f.Nearest q x := by
  have fin : Finite (BitVec w) := Finite.of_injective BitVec.toFin fun _ _ h => BitVec.eq_of_toFin_eq h
  obtain ⟨x, hx, h⟩ := Set.exists_min_image {x : BitVec w | f.finite x} (fun x => |f.val x - q|) (Set.toFinite _) hz
  exact ⟨x, hx, fun y hy => h y hy⟩

theorem exists_sqrt {f : Fmt} {w : Nat} (hz : ∃ x : BitVec w, f.finite x ∧ f.val x = 0) (q : ℚ) (hq : 0 ≤ q) :
    ∃ s : BitVec w, f.finite s ∧ 0 ≤ f.val s ∧ ∀ y : BitVec w, f.finite y → 0 ≤ f.val y →
      (f.val y ^ 2 ≤ q → f.val y ≤ f.val s) ∧ (q ≤ f.val y ^ 2 → f.val s ≤ f.val y) := by
  have fin : Finite (BitVec w) := Finite.of_injective BitVec.toFin fun _ _ h => BitVec.eq_of_toFin_eq h
  obtain ⟨z, hz1, hz2⟩ := hz
  obtain ⟨s, ⟨hs1, hs2, hs3⟩, h⟩ := Set.exists_max_image {y : BitVec w | f.finite y ∧ 0 ≤ f.val y ∧ f.val y ^ 2 ≤ q} (fun x => f.val x)
    (Set.toFinite _) ⟨z, hz1, by rw [hz2], by rw [hz2]; simpa using hq⟩
  exact ⟨s, hs1, hs2, fun y hy h0 => ⟨fun hq' => h y ⟨hy, h0, hq'⟩, fun hq' => by
    have := le_trans hs3 hq'
    exact (sq_le_sq₀ hs2 h0).1 this⟩⟩

open Classical in
/-- Some operations which conform to a format. -/
noncomputable def someOps (w : Nat) (f : Fmt) : FOps w where
  add x _ := x
  sub x _ := x
  mul x _ := x
  div x y := if h : ∃ z : BitVec w, f.Nearest (f.val x / f.val y) z then h.choose else 0
  sqrt x := if h : ∃ s : BitVec w, f.finite s ∧ 0 ≤ f.val s ∧ ∀ y : BitVec w, f.finite y → 0 ≤ f.val y →
      (f.val y ^ 2 ≤ f.val x → f.val y ≤ f.val s) ∧ (f.val x ≤ f.val y ^ 2 → f.val s ≤ f.val y) then h.choose else 0
  lt _ _ := false
  le _ _ := false
  eq _ _ := false
  gt _ _ := false
  ge _ _ := false
  rcp x := x
  rsqrt x := x
  rcp14 x := x
  rsqrt14 x := x
  rcp23 x := x
  rsqrt23 x := x
  recpe x := x
  recps x _ := x
  rsqrte x := x
  rsqrts x _ := x
  absLe _ _ := false
  swdiv x _ := x
  swsqrt x := x
  qrsqrte x := x
  ofInt x := if h : ∃ z : BitVec w, f.Nearest (x.toInt : ℚ) z then h.choose else 0
  toIntR x := if h : ∃ i : ℤ, |f.val x - i| < 1 / 2 then BitVec.ofInt 32 h.choose else 0
  toIntT x := BitVec.ofInt 32 (if 0 ≤ f.val x then ⌊f.val x⌋ else ⌈f.val x⌉)
  toSize _ := 0
  zero := 0
  one := 0

theorem toInt_ofInt_in {i : ℤ} (h : inInt i = true) : (BitVec.ofInt 32 i).toInt = i := by
  simp only [inInt, Bool.and_eq_true, decide_eq_true_eq] at h
  rw [BitVec.toInt_ofInt]
  exact Int.bmod_eq_of_le (by omega) (by omega)

/-- `Conforms` can be met. -/
theorem someOps_conforms {w : Nat} {f : Fmt} (hz : ∃ x : BitVec w, f.finite x ∧ f.val x = 0) : Conforms f (someOps w f) := by
  have hz' : ∃ x : BitVec w, f.finite x := ⟨hz.choose, hz.choose_spec.1⟩
  refine ⟨fun x => ?_, fun x y _ _ _ _ => ?_, fun x _ h0 => ?_, fun x _ i hi h => ?_, fun x _ i hi h => ?_⟩
  · have h := exists_nearest hz' (x.toInt : ℚ)
    simp only [someOps, dif_pos h]
    exact h.choose_spec
  · have h := exists_nearest hz' (f.val x / f.val y)
    simp only [someOps, dif_pos h]
    exact h.choose_spec
  · have h := exists_sqrt hz (f.val x) h0
    simp only [someOps, dif_pos h]
    exact h.choose_spec
  · have e : (if 0 ≤ f.val x then ⌊f.val x⌋ else ⌈f.val x⌉) = i := by
      rcases h with ⟨h0, h1, h2⟩ | ⟨h0, h1, h2⟩
      · rw [if_pos h0]; exact Int.floor_eq_iff.2 ⟨h1, h2⟩
      · split
        · next h3 =>
          have e0 : f.val x = 0 := le_antisymm h0 h3
          rw [e0] at h1 h2 ⊢
          have i1 : i < 1 := by
            have : (i : ℚ) < 1 := by linarith
            exact_mod_cast this
          have i2 : 0 ≤ i := by exact_mod_cast h2
          rw [Int.floor_zero]; omega
        · exact Int.ceil_eq_iff.2 ⟨h1, h2⟩
    simp only [someOps]
    rw [e]
    exact toInt_ofInt_in hi
  · have hE : ∃ i : ℤ, |f.val x - i| < 1 / 2 := ⟨i, h⟩
    have e : hE.choose = i := by
      have h' := abs_lt.1 hE.choose_spec
      have h := abs_lt.1 h
      have a1 : ((hE.choose : ℤ) : ℚ) < i + 1 := by linarith [h'.2, h.1, h'.1, h.2]
      have a2 : ((i : ℤ) : ℚ) < hE.choose + 1 := by linarith [h'.2, h.1, h'.1, h.2]
      have a1 : hE.choose < i + 1 := by exact_mod_cast a1
      have a2 : i < hE.choose + 1 := by exact_mod_cast a2
      omega
    simp only [someOps, dif_pos hE]
    rw [e]
    exact toInt_ofInt_in hi

theorem conforms_single : Conforms single (someOps 32 single) :=
  someOps_conforms (by
    obtain ⟨x, hx, e⟩ := single_int 0 (by decide)
    exact ⟨x, hx, by rw [e]; simp⟩)

theorem conforms_double : Conforms double (someOps 64 double) :=
  someOps_conforms (by
    obtain ⟨x, hx, e⟩ := exists_val (f := double) (w := 64) rfl 0 0 (by decide) (by decide) (by decide)
    exact ⟨x, hx, by rw [e]; simp⟩)

end LFA.SV
