/-
  C47, C59: division and square roots of `short_vec<int, N>`. Vector instructions for these do not exist: the classes for SSE, AVX and AVX512
  convert to `float`, compute there and convert back. `Conforms` (SV/Ieee.lean) says what the operations on floating point numbers return.
-/
import Verif.Props.ShortVecMem
import Verif.SV.IeeeInt
set_option autoImplicit false

namespace LFA.SV
open Fmt

/-- Targets and arities for which `int`s are divided as `float`s. -/
def viaFloat (c : Cfg) (n : Nat) : Bool :=
  decide (2 < n) && match c with
    | .avx512f | .avx2 | .avx | .sse | .sse2 | .sse41 => true
    | _ => false

theorem intOps_scalar {c : Cfg} {n : Nat} (h : viaFloat c n = false) : intOps c n = .int := by
  by_cases h2 : n ≤ 2
  · simp only [intOps, if_pos h2]
  · have h3 : decide (2 < n) = true := decide_eq_true (by omega)
    simp only [viaFloat, h3, Bool.true_and] at h
    cases c <;> simp only [Bool.true_eq_false] at h <;> simp only [intOps, if_neg h2]

theorem intOps_simd {c : Cfg} {n : Nat} (h : viaFloat c n = true) : ∃ rsqrt conv, intOps c n = .intSimd rsqrt conv ∧
    conv = if roundsInt c n then FOps.toIntR else FOps.toIntT := by
  have h3 : decide (2 < n) = true := (Bool.and_eq_true_iff.1 h).1
  have h2 : ¬ n ≤ 2 := by have := of_decide_eq_true h3; omega
  cases c <;> simp only [viaFloat, Bool.and_false, Bool.false_eq_true] at h <;> simp only [intOps, roundsInt, if_neg h2, h3, Bool.true_and] <;>
    refine ⟨_, _, rfl, ?_⟩ <;> first | rfl | skip
  all_goals by_cases h8 : n = 8 <;> simp [h8]

theorem idiv_toInt (x y : BitVec 32) (h : y.toInt ≠ 0 ∧ ¬(x.toInt = -2147483648 ∧ y.toInt = -1)) :
    ∃ z, idiv x y = some z ∧ z.toInt = x.toInt.tdiv y.toInt := by
  have hi := tdiv_inInt x y h.1 h.2
  exact ⟨_, by rw [idiv, if_pos ⟨h.1, hi⟩], toInt_ofInt_in hi⟩

/-! ### C47 -/

/-- C47 for classes without vector instructions: `/` and `/=` are the division of C++, for all integers. -/
theorem C47_scalar (c : Cfg) (e : Entry 32) (he : e ∈ intVecs c) (E : FEnv) (h : viaFloat c e.impl.N = false) :
    LaneWiseInt e.impl (e.impl.div E) Int.tdiv (fun x y => y ≠ 0 ∧ ¬(x = -2147483648 ∧ y = -1)) ∧
      LaneWiseInt e.impl (e.impl.divA E) Int.tdiv (fun x y => y ≠ 0 ∧ ¬(x = -2147483648 ∧ y = -1)) := by
  have A := int_arith c e he
  have hd := A.div E
  have hd' := A.divA E
  rw [intOps_scalar h] at hd hd'
  exact ⟨laneWiseInt A.len hd idiv_toInt, laneWiseInt A.len hd' idiv_toInt⟩

example : ∃ e ∈ intVecs .avx, LaneWiseInt e.impl (e.impl.div FEnv.demo) Int.tdiv (fun x y => y ≠ 0 ∧ ¬(x = -2147483648 ∧ y = -1)) := by
  have h2 : 2 ∈ (intVecs .avx).map (fun e => e.impl.N) := by decide
  obtain ⟨e, he, hN⟩ := List.mem_map.1 h2
  exact ⟨e, he, (C47_scalar .avx e he FEnv.demo (by rw [hN]; decide)).1⟩

/-- C47 for `/` on all targets, given floating point operations which conform to IEEE 754. Missing: dividends above 2 ^ 24 (and
    2 ^ 24 itself, if the divisor is greater) if vector instructions are used (C47_false). -/
theorem C47_div_partial (c : Cfg) (e : Entry 32) (he : e ∈ intVecs c) (E : FEnv) (C : Conforms single E.f32) :
    LaneWiseInt e.impl (e.impl.div E) Int.tdiv (fun x y => x.natAbs ≤ 2 ^ 24 ∧ (x.natAbs < 2 ^ 24 ∨ y.natAbs ≤ 2 ^ 24) ∧ y ≠ 0) := by
  have A := int_arith c e he
  have hd := A.div E
  cases h : viaFloat c e.impl.N
  · rw [intOps_scalar h] at hd
    exact laneWiseInt A.len hd fun x y hx => idiv_toInt x y ⟨hx.2.2, by omega⟩
  · obtain ⟨r, cv, e1, e2⟩ := intOps_simd h
    rw [e1] at hd
    exact laneWiseInt A.len hd fun x y hx => ⟨_, rfl, C.div_any x y hx.1 hx.2.1 hx.2.2⟩

/-- C47 for `/=`, unless the class rounds to nearest. -/
theorem C47_divA_partial (c : Cfg) (e : Entry 32) (he : e ∈ intVecs c) (E : FEnv) (C : Conforms single E.f32)
    (hr : roundsInt c e.impl.N = false) :
    LaneWiseInt e.impl (e.impl.divA E) Int.tdiv (fun x y => x.natAbs ≤ 2 ^ 24 ∧ (x.natAbs < 2 ^ 24 ∨ y.natAbs ≤ 2 ^ 24) ∧ y ≠ 0) := by
  have A := int_arith c e he
  have hd := A.divA E
  cases h : viaFloat c e.impl.N
  · rw [intOps_scalar h] at hd
    exact laneWiseInt A.len hd fun x y hx => idiv_toInt x y ⟨hx.2.2, by omega⟩
  · obtain ⟨r, cv, e1, e2⟩ := intOps_simd h
    rw [hr, if_neg (by decide)] at e2
    subst e2
    rw [e1] at hd
    exact laneWiseInt A.len hd fun x y hx => ⟨_, rfl, C.div_any x y hx.1 hx.2.1 hx.2.2⟩

/-- C47 for `/=` on all targets, if nothing is left to be rounded. -/
theorem C47_divA_exact_partial (c : Cfg) (e : Entry 32) (he : e ∈ intVecs c) (E : FEnv) (C : Conforms single E.f32) :
    LaneWiseInt e.impl (e.impl.divA E) Int.tdiv (fun x y => x.natAbs ≤ 2 ^ 24 ∧ y ≠ 0 ∧ y ∣ x) := by
  cases hr : roundsInt c e.impl.N
  · refine fun a b h => C47_divA_partial c e he E C hr a b fun i hi => ⟨(h i hi).1, ?_, (h i hi).2.1⟩
    obtain ⟨h1, h2, h3⟩ := h i hi
    by_cases h4 : (lane e.impl a i).toInt = 0
    · left; rw [h4]; decide
    · right; exact le_trans (Nat.le_of_dvd (by omega) (Int.natAbs_dvd_natAbs.2 h3)) h1
  have A := int_arith c e he
  have hd := A.divA E
  cases h : viaFloat c e.impl.N
  · rw [intOps_scalar h] at hd
    exact laneWiseInt A.len hd fun x y hx => idiv_toInt x y ⟨hx.2.1, by omega⟩
  · obtain ⟨r, cv, e1, e2⟩ := intOps_simd h
    rw [hr, if_pos rfl] at e2
    subst e2
    rw [e1] at hd
    exact laneWiseInt A.len hd fun x y hx => ⟨_, rfl, C.div_exact_any x y hx.1 hx.2.1 hx.2.2⟩

/-- C47 is false for all classes which use vector instructions: no odd integer between 2 ^ 24 and 2 ^ 25 survives a division by one. -/
theorem C47_false (c : Cfg) (e : Entry 32) (he : e ∈ intVecs c) (E : FEnv) (C : Conforms single E.f32) (h : viaFloat c e.impl.N = true)
    (x : BitVec 32) (h1 : 2 ^ 24 < x.toInt) (h2 : x.toInt < 2 ^ 25) (ho : x.toInt % 2 = 1) :
    ∃ a b v, e.impl.div E a b = some v ∧ ∀ i < e.impl.N, (lane e.impl a i) = x ∧ (lane e.impl b i).toInt = 1 ∧
      (lane e.impl v i).toInt ≠ (lane e.impl a i).toInt.tdiv (lane e.impl b i).toInt := by
  have A := int_arith c e he
  have hd := A.div E
  obtain ⟨r, cv, e1, e2⟩ := intOps_simd h
  rw [e1] at hd
  obtain ⟨v, hv, hl⟩ := laneWise A.len hd (e.impl.bcast E x) (e.impl.bcast E 1)
  refine ⟨_, _, v, hv, fun i hi => ?_⟩
  have b1 := bcast_lane (A.bcast E) x i hi
  have b2 := bcast_lane (A.bcast E) 1 i hi
  rw [hl i hi, b1, b2]
  refine ⟨rfl, rfl, ?_⟩
  rw [show (1 : BitVec 32).toInt = 1 from rfl, Int.tdiv_one]
  exact C.div_one_odd x 1 h1 h2 ho rfl

/-- C47 is false for `/=` of all classes which round to nearest: 2 /= 3 is 1. -/
theorem C47_false_assign (c : Cfg) (e : Entry 32) (he : e ∈ intVecs c) (E : FEnv) (C : Conforms single E.f32)
    (h : roundsInt c e.impl.N = true) :
    ∃ a b v, e.impl.divA E a b = some v ∧ ∀ i < e.impl.N, (lane e.impl a i).toInt = 2 ∧ (lane e.impl b i).toInt = 3 ∧
      (lane e.impl v i).toInt = 1 := by
  have A := int_arith c e he
  have hd := A.divA E
  have hv : viaFloat c e.impl.N = true := by
    revert h
    unfold roundsInt viaFloat
    cases c <;> simp +contextual
  obtain ⟨r, cv, e1, e2⟩ := intOps_simd hv
  rw [h, if_pos rfl] at e2
  subst e2
  rw [e1] at hd
  obtain ⟨v, hv, hl⟩ := laneWise A.len hd (e.impl.bcast E 2) (e.impl.bcast E 3)
  refine ⟨_, _, v, hv, fun i hi => ?_⟩
  rw [hl i hi, bcast_lane (A.bcast E) 2 i hi, bcast_lane (A.bcast E) 3 i hi]
  exact ⟨rfl, rfl, C.div_round_false⟩

/-- C54 for division is false on these targets, too: `2 / 3` is 0 and `2 /= 3` is 1. -/
theorem C54_false_int_ieee (c : Cfg) (e : Entry 32) (he : e ∈ intVecs c) (E : FEnv) (C : Conforms single E.f32)
    (h : roundsInt c e.impl.N = true) : ¬ Agree e.impl (e.impl.div E) (e.impl.divA E) fun x y => x.toInt = 2 ∧ y.toInt = 3 := by
  intro ha
  refine C54_false_int E 2 3 ?_ c e he h (ha.mono fun x y hx => ?_)
  · intro hc
    have h1 := C.div_trunc 2 3 (by decide) (by decide) (by decide)
    rw [hc, C.div_round_false] at h1
    exact absurd h1 (by decide)
  · rw [hx.1, hx.2]; exact ⟨rfl, rfl⟩

/-- Operations as demanded exist. -/
noncomputable def conformingEnv : FEnv := ⟨someOps 32 single, someOps 64 double⟩

/-- The theorems apply: 7 / 2 in four lanes, with AVX. -/
example : ∃ e ∈ intVecs .avx, e.impl.N = 4 ∧ viaFloat .avx e.impl.N = true ∧ roundsInt .avx e.impl.N = true ∧
    Conforms single conformingEnv.f32 ∧ ∃ v, e.impl.div conformingEnv (e.impl.bcast conformingEnv 7) (e.impl.bcast conformingEnv 2) = some v ∧
      ∀ i < e.impl.N, (lane e.impl v i).toInt = 3 := by
  obtain ⟨e, he, hN⟩ : ∃ e ∈ intVecs .avx, e.impl.N = 4 := by
    have : 4 ∈ (intVecs .avx).map (fun e => e.impl.N) := by decide
    obtain ⟨e, he, hN⟩ := List.mem_map.1 this
    exact ⟨e, he, hN⟩
  refine ⟨e, he, hN, by rw [hN]; decide, by rw [hN]; decide, conforms_single, ?_⟩
  have A := int_arith _ e he
  have b7 := fun i hi => bcast_lane (A.bcast conformingEnv) 7 i hi
  have b2 := fun i hi => bcast_lane (A.bcast conformingEnv) 2 i hi
  obtain ⟨v, hv, hl⟩ := C47_div_partial .avx e he conformingEnv conforms_single (e.impl.bcast conformingEnv 7) (e.impl.bcast conformingEnv 2)
    fun i hi => by rw [b7 i hi, b2 i hi]; decide
  exact ⟨v, hv, fun i hi => by rw [hl i hi, b7 i hi, b2 i hi]; rfl⟩

/-! ### C59 -/

/-- Square roots of all lanes. -/
def LaneWiseInt1 (I : Impl 32) (op : I.V → Option I.V) (f : Int → Int) (ok : Int → Prop) : Prop :=
  ∀ a, (∀ i < I.N, ok (lane I a i).toInt) → ∃ v, op a = some v ∧ ∀ i < I.N, (lane I v i).toInt = f (lane I a i).toInt

/-- Square root of an integer, rounded down. -/
def isqrt (x : Int) : Int := x.toNat.sqrt

/-- Square root of an integer, rounded to nearest. -/
def rsqrtI (x : Int) : Int := if x ≤ isqrt x * isqrt x + isqrt x then isqrt x else isqrt x + 1

/-- `isqrt` is what it is meant to be. -/
theorem isqrt_spec (x : Int) (h : 0 ≤ x) : 0 ≤ isqrt x ∧ isqrt x ^ 2 ≤ x ∧ x < (isqrt x + 1) ^ 2 := by
  obtain ⟨n, rfl⟩ : ∃ n : Nat, x = n := ⟨x.toNat, by omega⟩
  obtain ⟨h1, h2⟩ := sqrt_le_nat n
  simp only [isqrt, Int.toNat_natCast, sq]
  exact ⟨Int.natCast_nonneg _, by exact_mod_cast h1, by exact_mod_cast h2⟩

/-- `rsqrtI x` differs from the square root by less than 1 / 2. -/
theorem rsqrtI_spec (x : Int) (h : 0 < x) : 0 < rsqrtI x ∧ (2 * rsqrtI x - 1) ^ 2 < 4 * x ∧ 4 * x < (2 * rsqrtI x + 1) ^ 2 := by
  obtain ⟨h0, h1, h2⟩ := isqrt_spec x (by omega)
  unfold rsqrtI
  split
  · next hle =>
    have : isqrt x ≠ 0 := by intro h0; rw [h0] at hle; omega
    exact ⟨by omega, by nlinarith, by nlinarith⟩
  · exact ⟨by omega, by nlinarith, by nlinarith⟩

theorem laneWiseInt1 {I : Impl 32} {op : I.V → Option I.V} {f : BitVec 32 → BitVec 32} {g : Int → Int}
    {ok : Int → Prop} (hl : LenLaw I.N I.lanes) (h : UnLaw I.lanes op fun x => some (f x))
    (hf : ∀ x, ok x.toInt → (f x).toInt = g x.toInt) : LaneWiseInt1 I op g ok := by
  intro a hok
  obtain ⟨v, h1, h2⟩ := laneWise1 hl h a
  exact ⟨v, h1, fun i hi => by rw [h2 i hi]; exact hf _ (hok i hi)⟩

/-- C59 for classes without vector instructions: rounded down, for all integers which have a square root. -/
theorem C59_scalar (c : Cfg) (e : Entry 32) (he : e ∈ intVecs c) (E : FEnv) (C : Conforms double E.f64) (h : viaFloat c e.impl.N = false) :
    LaneWiseInt1 e.impl (e.impl.sqrt E) isqrt (0 ≤ ·) ∧ LaneWiseInt1 e.impl (e.impl.sqrtM E) isqrt (0 ≤ ·) := by
  have A := int_arith c e he
  have hs := A.sqrt E
  have hs' := A.sqrtM E
  rw [intOps_scalar h] at hs hs'
  exact ⟨laneWiseInt1 A.len hs fun x hx => C.sqrt_trunc x hx, laneWiseInt1 A.len hs' fun x hx => C.sqrt_trunc x hx⟩

/-- Classes which use vector instructions round to nearest (below 2 ^ 20: above it, the rounding to `float` may be seen). -/
theorem C59_simd_partial (c : Cfg) (e : Entry 32) (he : e ∈ intVecs c) (E : FEnv) (C : Conforms single E.f32)
    (h : viaFloat c e.impl.N = true) :
    LaneWiseInt1 e.impl (e.impl.sqrt E) rsqrtI (fun x => 0 ≤ x ∧ x < 2 ^ 20) ∧
      LaneWiseInt1 e.impl (e.impl.sqrtM E) rsqrtI (fun x => 0 ≤ x ∧ x < 2 ^ 20) := by
  have A := int_arith c e he
  have hs := A.sqrt E
  have hs' := A.sqrtM E
  obtain ⟨r, cv, e1, e2⟩ := intOps_simd h
  rw [e1] at hs hs'
  have K : ∀ x : BitVec 32, 0 ≤ x.toInt ∧ x.toInt < 2 ^ 20 → (E.f32.toIntR (E.f32.sqrt (E.f32.ofInt x))).toInt = rsqrtI x.toInt := by
    intro x hx
    rw [C.sqrt_round x hx.1 hx.2]
    obtain ⟨n, hn⟩ : ∃ n : Nat, x.toInt = n := ⟨x.toInt.toNat, by omega⟩
    rw [hn]
    unfold rsqrtI isqrt
    rw [Int.toNat_natCast]
    norm_cast
  exact ⟨laneWiseInt1 A.len hs K, laneWiseInt1 A.len hs' K⟩

/-- C59 is false: the square root of 3 is 1 without vector instructions, and 2 with them. -/
theorem C59_false (E : FEnv) (C : Conforms single E.f32) (C' : Conforms double E.f64) (c c' : Cfg) (e e' : Entry 32) (he : e ∈ intVecs c)
    (he' : e' ∈ intVecs c') (h : viaFloat c e.impl.N = true) (h' : viaFloat c' e'.impl.N = false) :
    (∃ v, e.impl.sqrt E (e.impl.bcast E 3) = some v ∧ ∀ i < e.impl.N, (lane e.impl v i).toInt = 2) ∧
    ∃ v, e'.impl.sqrt E (e'.impl.bcast E 3) = some v ∧ ∀ i < e'.impl.N, (lane e'.impl v i).toInt = 1 := by
  have A := int_arith c e he
  have A' := int_arith c' e' he'
  have b := fun i hi => bcast_lane (A.bcast E) 3 i hi
  have b' := fun i hi => bcast_lane (A'.bcast E) 3 i hi
  have s : Nat.sqrt 3 = 1 := (Nat.eq_sqrt.2 ⟨by decide, by decide⟩).symm
  constructor
  · obtain ⟨v, h1, h2⟩ := (C59_simd_partial c e he E C h).1 (e.impl.bcast E 3) fun i hi => by rw [b i hi]; decide
    refine ⟨v, h1, fun i hi => ?_⟩
    rw [h2 i hi, b i hi]
    have : (BitVec.toInt (3 : BitVec 32)) = 3 := rfl
    rw [this, rsqrtI, isqrt, show (3 : Int).toNat = 3 from rfl, s]
    rfl
  · obtain ⟨v, h1, h2⟩ := (C59_scalar c' e' he' E C' h').1 (e'.impl.bcast E 3) fun i hi => by rw [b' i hi]; decide
    refine ⟨v, h1, fun i hi => ?_⟩
    rw [h2 i hi, b' i hi]
    have : (BitVec.toInt (3 : BitVec 32)) = 3 := rfl
    rw [this, isqrt, show (3 : Int).toNat = 3 from rfl, s]
    rfl

/-- Even the same program with the same target is affected: `short_vec<int, 2>` and `short_vec<int, 4>`, with SSE. -/
example : ∃ e ∈ intVecs .sse, ∃ e' ∈ intVecs .sse, viaFloat .sse e.impl.N = true ∧ viaFloat .sse e'.impl.N = false ∧
    Conforms single conformingEnv.f32 ∧ Conforms double conformingEnv.f64 := by
  have h4 : 4 ∈ (intVecs .sse).map (fun e => e.impl.N) := by decide
  have h2 : 2 ∈ (intVecs .sse).map (fun e => e.impl.N) := by decide
  obtain ⟨e, he, hN⟩ := List.mem_map.1 h4
  obtain ⟨e', he', hN'⟩ := List.mem_map.1 h2
  exact ⟨e, he, e', he', by rw [hN]; decide, by rw [hN']; decide, conforms_single, conforms_double⟩

example : ∃ e ∈ intVecs .avx, ∃ a b v, e.impl.divA conformingEnv a b = some v ∧ ∀ i < e.impl.N, (lane e.impl a i).toInt = 2 ∧
    (lane e.impl b i).toInt = 3 ∧ (lane e.impl v i).toInt = 1 := by
  have h4 : 4 ∈ (intVecs .avx).map (fun e => e.impl.N) := by decide
  obtain ⟨e, he, hN⟩ := List.mem_map.1 h4
  exact ⟨e, he, C47_false_assign .avx e he conformingEnv conforms_single (by rw [hN]; decide)⟩

end LFA.SV
