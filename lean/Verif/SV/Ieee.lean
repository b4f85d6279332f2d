/-
  Values of floating point numbers in the formats of IEEE 754, and what conforming operations return. This is part of the specification:
  the model of `short_vec` works for any operations on bit patterns.
-/
import Verif.SV.Base
import Mathlib.Data.Rat.Defs
import Mathlib.Algebra.Order.Field.Rat
import Mathlib.Algebra.Order.Ring.Abs
import Mathlib.Tactic.Linarith
import Mathlib.Tactic.NormNum
import Mathlib.Tactic.Ring
import Mathlib.Tactic.FieldSimp
import Mathlib.Tactic.Positivity
import Mathlib.Data.Set.Finite.Lattice
set_option autoImplicit false

namespace LFA.SV

/-- A binary format: `m` bits of the significand are stored, `e` bits of the exponent. -/
structure Fmt where
  m : Nat
  e : Nat

/-- `float` -/
def Fmt.single : Fmt := ⟨23, 8⟩
/-- `double` -/
def Fmt.double : Fmt := ⟨52, 11⟩

namespace Fmt
variable (f : Fmt) {w : Nat}

/-- Bias of the exponent. -/
def bias : Nat := 2 ^ (f.e - 1) - 1
/-- Is the sign bit set? -/
def neg (x : BitVec w) : Bool := decide (x.toNat / 2 ^ (f.m + f.e) = 1)
/-- The exponent's field. -/
def ex (x : BitVec w) : Nat := x.toNat / 2 ^ f.m % 2 ^ f.e
/-- The significand's field. -/
def man (x : BitVec w) : Nat := x.toNat % 2 ^ f.m
/-- Neither infinite nor NaN. -/
def finite (x : BitVec w) : Prop := f.ex x ≠ 2 ^ f.e - 1
/-- Absolute value of a finite number. -/
def mag (x : BitVec w) : ℚ :=
  if f.ex x = 0 then f.man x * 2 ^ (1 - (f.bias : ℤ) - f.m) else (2 ^ f.m + f.man x) * 2 ^ ((f.ex x : ℤ) - f.bias - f.m)
/-- Value of a finite number. -/
def val (x : BitVec w) : ℚ := if f.neg x then -f.mag x else f.mag x

/-- Rounding to nearest: no finite number is closer to `q`. Nothing is said about ties. -/
def Nearest (q : ℚ) (x : BitVec w) : Prop := f.finite x ∧ ∀ y : BitVec w, f.finite y → |f.val x - q| ≤ |f.val y - q|

/-- The largest finite number. -/
def huge : ℚ := (2 ^ (f.m + 1) - 1) * 2 ^ ((2 ^ f.e - 2 : ℤ) - f.bias - f.m)

end Fmt

/-- Operations which conform to IEEE 754, as far as they are needed here (no claim about infinities and NaN). The square root is only
    demanded to be between its neighbours. -/
structure Conforms {w : Nat} (f : Fmt) (F : FOps w) : Prop where
  ofInt : ∀ x, f.Nearest (x.toInt : ℚ) (F.ofInt x)
  div : ∀ x y, f.finite x → f.finite y → f.val y ≠ 0 → |f.val x / f.val y| ≤ f.huge → f.Nearest (f.val x / f.val y) (F.div x y)
  sqrt : ∀ x, f.finite x → 0 ≤ f.val x → f.finite (F.sqrt x) ∧ 0 ≤ f.val (F.sqrt x) ∧ ∀ y : BitVec w, f.finite y → 0 ≤ f.val y →
    (f.val y ^ 2 ≤ f.val x → f.val y ≤ f.val (F.sqrt x)) ∧ (f.val x ≤ f.val y ^ 2 → f.val (F.sqrt x) ≤ f.val y)
  toIntT : ∀ x, f.finite x → ∀ i : ℤ, inInt i = true → ((0 ≤ f.val x ∧ (i : ℚ) ≤ f.val x ∧ f.val x < i + 1) ∨
    (f.val x ≤ 0 ∧ (i : ℚ) - 1 < f.val x ∧ f.val x ≤ i)) → (F.toIntT x).toInt = i
  toIntR : ∀ x, f.finite x → ∀ i : ℤ, inInt i = true → |f.val x - i| < 1 / 2 → (F.toIntR x).toInt = i

namespace Fmt
variable {f : Fmt} {w : Nat}

theorem toNat_ofNat_lt {n : Nat} (h : n < 2 ^ w) : (BitVec.ofNat w n).toNat = n := by
  rw [BitVec.toNat_ofNat, Nat.mod_eq_of_lt h]

/-- `n * 2 ^ k` is a number of the format, unless the significand is too long or the exponent out of range. -/
theorem exists_val (hw : w = f.m + f.e + 1) (n : Nat) (k : ℤ) (hn : n < 2 ^ (f.m + 1)) (h1 : 0 < k + f.bias)
    (h2 : k + f.bias + f.m < 2 ^ f.e - 1) : ∃ x : BitVec w, f.finite x ∧ f.val x = n * 2 ^ k := by
  by_cases h0 : n = 0
  · subst h0
    refine ⟨BitVec.ofNat w 0, ?_, ?_⟩
    · have : (BitVec.ofNat w 0).toNat = 0 := toNat_ofNat_lt (Nat.two_pow_pos w)
      unfold finite ex
      rw [this, Nat.zero_div, Nat.zero_mod]
      have : ((2 ^ f.e : Nat) : ℤ) = 2 ^ f.e := by push_cast; rfl
      omega
    · have : (BitVec.ofNat w 0).toNat = 0 := toNat_ofNat_lt (Nat.two_pow_pos w)
      simp [val, mag, ex, man, this]
  -- normalise
  let l := n.log2
  have hl1 : 2 ^ l ≤ n := Nat.log2_self_le h0
  have hl2 : n < 2 ^ (l + 1) := Nat.lt_log2_self
  have hlm : l ≤ f.m := by
    by_contra hc
    have : 2 ^ (f.m + 1) ≤ 2 ^ l := Nat.pow_le_pow_right (by decide) (by omega)
    omega
  obtain ⟨d, hd⟩ : ∃ d, f.m = l + d := ⟨f.m - l, by omega⟩
  have hm1 : 2 ^ f.m ≤ n * 2 ^ d := by rw [hd, Nat.pow_add]; exact Nat.mul_le_mul_right _ hl1
  have hm2 : n * 2 ^ d < 2 ^ f.m + 2 ^ f.m := by
    have : n * 2 ^ d < 2 ^ (l + 1) * 2 ^ d := Nat.mul_lt_mul_of_pos_right hl2 (Nat.two_pow_pos d)
    rw [← Nat.pow_add, show l + 1 + d = f.m + 1 by omega, Nat.pow_succ] at this
    omega
  obtain ⟨X, hX⟩ : ∃ X : Nat, (X : ℤ) = k + l + f.bias := ⟨(k + l + f.bias).toNat, by omega⟩
  have hX1 : 0 < X := by omega
  have hX2 : X < 2 ^ f.e - 1 := by
    have : ((2 ^ f.e : Nat) : ℤ) = 2 ^ f.e := by push_cast; rfl
    omega
  obtain ⟨r, hr⟩ : ∃ r, n * 2 ^ d = 2 ^ f.m + r := ⟨n * 2 ^ d - 2 ^ f.m, by omega⟩
  have hrm : r < 2 ^ f.m := by omega
  have hlt : X * 2 ^ f.m + r < 2 ^ f.e * 2 ^ f.m := by
    have : (X + 1) * 2 ^ f.m ≤ 2 ^ f.e * 2 ^ f.m := Nat.mul_le_mul_right _ (by omega)
    rw [Nat.add_mul, Nat.one_mul] at this
    omega
  have hN : (BitVec.ofNat w (X * 2 ^ f.m + r)).toNat = X * 2 ^ f.m + r := by
    apply toNat_ofNat_lt
    rw [hw, Nat.pow_succ, Nat.pow_add, Nat.mul_comm (2 ^ f.m)]
    omega
  have hex : f.ex (BitVec.ofNat w (X * 2 ^ f.m + r)) = X := by
    unfold ex
    rw [hN, Nat.mul_comm X, Nat.mul_add_div (Nat.two_pow_pos _), Nat.div_eq_of_lt hrm, Nat.add_zero, Nat.mod_eq_of_lt (by omega)]
  have hman : f.man (BitVec.ofNat w (X * 2 ^ f.m + r)) = r := by
    unfold man
    rw [hN, Nat.mul_comm X, Nat.mul_add_mod, Nat.mod_eq_of_lt hrm]
  have hneg : f.neg (BitVec.ofNat w (X * 2 ^ f.m + r)) = false := by
    unfold neg
    rw [hN, Nat.div_eq_of_lt (by rw [Nat.pow_add, Nat.mul_comm (2 ^ f.m)]; exact hlt)]
    rfl
  refine ⟨BitVec.ofNat w (X * 2 ^ f.m + r), ?_, ?_⟩
  · unfold finite; rw [hex]; omega
  · rw [val, hneg, if_neg (by decide), mag, hex, if_neg (by omega), hman]
    have : ((2 : ℚ) ^ f.m + r) = n * 2 ^ d := by exact_mod_cast hr.symm
    rw [this, mul_assoc]
    congr 1
    rw [← zpow_natCast, ← zpow_add₀ (by norm_num)]
    congr 1
    rw [hX]
    have : (f.m : ℤ) = l + d := by exact_mod_cast hd
    omega

/-- Each number has a negative. -/
theorem exists_neg (hw : w = f.m + f.e + 1) (x : BitVec w) (hx : f.finite x) : ∃ y : BitVec w, f.finite y ∧ f.val y = -f.val x := by
  let P := 2 ^ (f.m + f.e)
  have hP : P = 2 ^ f.m * 2 ^ f.e := Nat.pow_add ..
  have hPw : P + P = 2 ^ w := by rw [hw, Nat.pow_succ]; show P + P = P * 2; omega
  have hxl : x.toNat < P + P := by rw [hPw]; exact x.isLt
  have hP0 : 0 < P := Nat.two_pow_pos _
  have key : ∀ n, (P + n) / 2 ^ f.m % 2 ^ f.e = n / 2 ^ f.m % 2 ^ f.e ∧ (P + n) % 2 ^ f.m = n % 2 ^ f.m := by
    intro n
    rw [hP, Nat.mul_add_div (Nat.two_pow_pos _), Nat.add_mod_left, Nat.mul_add_mod]
    exact ⟨rfl, rfl⟩
  by_cases h : x.toNat < P
  · have e : (BitVec.ofNat w (P + x.toNat)).toNat = P + x.toNat := toNat_ofNat_lt (by omega)
    have hex : f.ex (BitVec.ofNat w (P + x.toNat)) = f.ex x := by unfold ex; rw [e]; exact (key _).1
    have hman : f.man (BitVec.ofNat w (P + x.toNat)) = f.man x := by unfold man; rw [e]; exact (key _).2
    have hn1 : f.neg x = false := by unfold neg; rw [Nat.div_eq_of_lt h]; rfl
    have hn2 : f.neg (BitVec.ofNat w (P + x.toNat)) = true := by
      unfold neg; rw [e]
      have : (P + x.toNat) / P = 1 := by rw [Nat.add_div_left _ hP0, Nat.div_eq_of_lt h]
      exact decide_eq_true this
    refine ⟨BitVec.ofNat w (P + x.toNat), ?_, ?_⟩
    · unfold finite; rw [hex]; exact hx
    · rw [val, val, hn1, hn2, mag, mag, hex, hman]; rfl
  · obtain ⟨n, hn⟩ : ∃ n, x.toNat = P + n := ⟨x.toNat - P, by omega⟩
    have e : (BitVec.ofNat w n).toNat = n := toNat_ofNat_lt (by omega)
    have hex : f.ex (BitVec.ofNat w n) = f.ex x := by unfold ex; rw [e, hn]; exact (key _).1.symm
    have hman : f.man (BitVec.ofNat w n) = f.man x := by unfold man; rw [e, hn]; exact (key _).2.symm
    have hn1 : f.neg (BitVec.ofNat w n) = false := by unfold neg; rw [e, Nat.div_eq_of_lt (by omega)]; rfl
    have hn2 : f.neg x = true := by
      unfold neg; rw [hn]
      have : (P + n) / P = 1 := by rw [Nat.add_div_left _ hP0, Nat.div_eq_of_lt (by omega)]
      exact decide_eq_true this
    refine ⟨BitVec.ofNat w n, ?_, ?_⟩
    · unfold finite; rw [hex]; exact hx
    · rw [val, val, hn1, hn2, mag, mag, hex, hman]; simp

/-- Rounding is exact if possible. -/
theorem Nearest.exact {q : ℚ} {x y : BitVec w} (h : f.Nearest q x) (hy : f.finite y) (e : f.val y = q) : f.val x = q := by
  have := h.2 y hy
  rw [e, sub_self, abs_zero] at this
  have := abs_nonpos_iff.1 this
  linarith

/-- A number of single precision is nearest to the quotient of two integers up to 2 ^ 24. Then its integral part is that of the quotient. -/
theorem nearest_floor (y : ℚ) (A B : Nat) (hA : A ≤ 2 ^ 24) (hB : B ≤ 2 ^ 24) (hB0 : 0 < B)
    (hy : ∀ x : BitVec 32, single.finite x → |y - A / B| ≤ |single.val x - A / B|) :
    ((A / B : Nat) : ℚ) ≤ y ∧ y < (A / B : Nat) + 1 := by
  have rep : ∀ (n : Nat) (k : ℤ), n < 2 ^ 24 → -100 ≤ k → k ≤ 100 → |y - A / B| ≤ |(n : ℚ) * 2 ^ k - A / B| := by
    intro n k hn h1 h2
    obtain ⟨x, hx, e⟩ := exists_val (f := single) (w := 32) rfl n k hn
      (by simp only [single, bias]; norm_num; omega) (by simp only [single, bias]; norm_num; omega)
    rw [← e]; exact hy x hx
  have repi : ∀ n : Nat, n ≤ 2 ^ 24 → |y - A / B| ≤ |(n : ℚ) - A / B| := by
    intro n hn
    rcases Nat.lt_or_eq_of_le hn with h | h
    · have := rep n 0 h (by decide) (by decide)
      simpa using this
    · have := rep (2 ^ 23) 1 (by decide) (by decide) (by decide)
      rw [h]
      norm_num at this ⊢
      exact this
  have hBq : (0 : ℚ) < B := by exact_mod_cast hB0
  obtain ⟨k, r, hk, hr, hkr⟩ : ∃ k r, A / B = k ∧ r < B ∧ A = B * k + r :=
    ⟨A / B, A % B, rfl, Nat.mod_lt _ hB0, (Nat.div_add_mod A B).symm⟩
  rw [hk]
  have hkA : k ≤ A := by rw [← hk]; exact Nat.div_le_self _ _
  have hq : (A : ℚ) / B = k + r / B := by
    rw [hkr]; push_cast; field_simp
  rw [hq] at hy rep repi
  by_cases hr0 : r = 0
  · subst hr0
    have := repi k (by omega)
    simp only [Nat.cast_zero, zero_div, add_zero, sub_self, abs_zero] at this
    have := abs_nonpos_iff.1 this
    constructor <;> linarith
  · have hr1 : 1 ≤ r := by omega
    have hfr : 0 < (r : ℚ) / B := by positivity
    have hfr1 : (r : ℚ) / B < 1 := by rw [div_lt_one hBq]; exact_mod_cast hr
    have hk1 : k + 1 ≤ 2 ^ 24 := by
      have : k * 1 ≤ B * k := by rw [Nat.mul_comm B]; exact Nat.mul_le_mul_left _ hB0
      omega
    have b1 := repi k (by omega)
    have b2 := repi (k + 1) hk1
    push_cast at b2
    rw [show (k : ℚ) - (k + r / B) = -(r / B) by ring, abs_neg, abs_of_pos hfr] at b1
    rw [show (k : ℚ) + 1 - (k + r / B) = 1 - r / B by ring, abs_of_pos (show (0 : ℚ) < 1 - r / B by linarith)] at b2
    have c1 := abs_le.1 b1
    have c2 := abs_le.1 b2
    refine ⟨by linarith [c1.1], ?_⟩
    by_contra hc
    have hyk : y = k + 1 := by linarith [c2.2]
    -- the predecessor of k + 1
    have pred : ∃ δ : ℚ, 0 < δ ∧ δ < 2 * (1 - r / B) ∧ |y - (k + r / B)| ≤ |((k : ℚ) + 1 - δ) - (k + r / B)| := by
      rcases Nat.eq_zero_or_pos k with h0 | h0
      · refine ⟨2 ^ (-24 : ℤ), by positivity, ?_, ?_⟩
        · have h1 : (1 : ℚ) / B ≤ 1 - r / B := by
            rw [le_sub_iff_add_le, ← add_div, div_le_one hBq]
            exact_mod_cast (by omega : 1 + r ≤ B)
          have h2 : (1 : ℚ) / 2 ^ 24 ≤ 1 / B := one_div_le_one_div_of_le hBq (by exact_mod_cast hB)
          rw [show (2 : ℚ) ^ (-24 : ℤ) = 1 / 2 ^ 24 by norm_num]
          have h3 : (0 : ℚ) < 1 / 2 ^ 24 := by norm_num
          linarith
        · have := rep (2 ^ 24 - 1) (-24) (by decide) (by decide) (by decide)
          rw [h0] at this ⊢
          norm_num at this ⊢
          exact this
      · let e := k.log2
        have he1 : 2 ^ e ≤ k := Nat.log2_self_le (by omega)
        have he2 : k < 2 ^ (e + 1) := Nat.lt_log2_self
        have he : e ≤ 23 := by
          by_contra hc'
          have : 2 ^ 24 ≤ 2 ^ e := Nat.pow_le_pow_right (by decide) (by omega)
          omega
        obtain ⟨d, hd⟩ : ∃ d, 23 = e + d := ⟨23 - e, by omega⟩
        have hpe : (2 : ℚ) ^ (-(d : ℤ)) = 1 / 2 ^ d := by rw [zpow_neg, zpow_natCast, one_div]
        refine ⟨2 ^ (-(d : ℤ)), zpow_pos (by norm_num) _, ?_, ?_⟩
        · rw [hpe]
          by_contra hc'
          have h1 : 2 * (1 - (r : ℚ) / B) ≤ 1 / 2 ^ d := by linarith
          have h2 : 2 * ((B : ℚ) - r) * 2 ^ d ≤ B := by
            have : 2 * (1 - (r : ℚ) / B) * (B * 2 ^ d) ≤ 1 / 2 ^ d * (B * 2 ^ d) := mul_le_mul_of_nonneg_right h1 (by positivity)
            have e1 : 2 * (1 - (r : ℚ) / B) * (B * 2 ^ d) = 2 * ((B : ℚ) - r) * 2 ^ d := by field_simp
            have e2 : (1 : ℚ) / 2 ^ d * (B * 2 ^ d) = B := by field_simp
            linarith
          obtain ⟨n, hn⟩ : ∃ n, B = r + n := ⟨B - r, by omega⟩
          have h3 : 2 * n * 2 ^ d ≤ B := by
            have : ((B : ℚ) - r) = n := by rw [hn]; push_cast; ring
            rw [this] at h2
            exact_mod_cast h2
          have h4 : 2 * n * 2 ^ d * 2 ^ e ≤ B * k := Nat.mul_le_mul h3 he1
          have h5 : 2 * n * 2 ^ d * 2 ^ e = n * 2 ^ 24 := by
            rw [show (24 : Nat) = 1 + (d + e) by omega, Nat.pow_add, Nat.pow_add]
            ring
          have h6 : 1 * 2 ^ 24 ≤ n * 2 ^ 24 := Nat.mul_le_mul_right _ (by omega)
          omega
        · have := rep ((k + 1) * 2 ^ d - 1) (-(d : ℤ)) ?_ (by omega) (by omega)
          · have e1 : (((k + 1) * 2 ^ d - 1 : Nat) : ℚ) * 2 ^ (-(d : ℤ)) = k + 1 - 2 ^ (-(d : ℤ)) := by
              rw [Nat.cast_sub (Nat.mul_pos (by omega) (Nat.two_pow_pos d)), hpe]
              push_cast
              field_simp
            rw [e1] at this
            exact this
          · have : (k + 1) * 2 ^ d ≤ 2 ^ (e + 1) * 2 ^ d := Nat.mul_le_mul_right _ (by omega)
            rw [← Nat.pow_add, show e + 1 + d = 24 by omega] at this
            have : 0 < (k + 1) * 2 ^ d := Nat.mul_pos (by omega) (Nat.two_pow_pos d)
            omega
    obtain ⟨δ, hδ, hδ2, h⟩ := pred
    rw [hyk, show (k : ℚ) + 1 - (k + r / B) = 1 - r / B by ring, abs_of_pos (show (0 : ℚ) < 1 - r / B by linarith),
      show (k : ℚ) + 1 - δ - (k + r / B) = 1 - r / B - δ by ring] at h
    rcases le_total 0 (1 - (r : ℚ) / B - δ) with h' | h'
    · rw [abs_of_nonneg h'] at h; linarith
    · rw [abs_of_nonpos h'] at h; linarith

end Fmt
end LFA.SV
