import Verif.LoopPeelerFn
import Verif.Props.LoopPeeler

/-
  C37 for the function template `loop_peeler`, whose counter, end and lambda may use different integer types.
-/
namespace LFA
open Peel

/-- Next to a multiple of the arity within the range there is room for another vector. -/
theorem room {A : Nat} {hi x e k : Int} (hA : 0 < A) (hd : (A : Int) ∣ hi) (hx : ¬ (A : Int) ∣ x) (h1 : x ≤ A * k) (h2 : A * k ≤ e)
    (he : e < hi) : x + A < hi := by
  obtain ⟨q, rfl⟩ := hd
  have hA' : (0 : Int) < A := by omega
  have hne : x ≠ A * k := fun h => hx ⟨k, h⟩
  have hkq : k < q := by
    rcases Int.lt_or_le k q with h | h
    · exact h
    · have := Int.mul_le_mul_of_nonneg_left h (Int.le_of_lt hA')
      omega
  have := Int.mul_le_mul_of_nonneg_left (show k + 1 ≤ q by omega) (Int.le_of_lt hA')
  rw [Int.mul_add, Int.mul_one] at this
  omega

/-- C37 for `loop_peeler<SHORT_VEC>(&counter, end, lambda)`: for all types of the counter, the end and the lambda's parameter, signed or
    not, and all nonnegative ranges which these can represent and which contain a multiple of the arity. Missing: other ranges. -/
theorem C37_function_partial (t1 t2 t3 : CTy) (b1 : 0 < t1.bits) (b2 : 0 < t2.bits) (b3 : 0 < t3.bits) (A : Nat) (hA : 0 < A)
    (hA2 : (A : Int) < t2.hi) (d1 : (A : Int) ∣ t1.hi) (d2 : (A : Int) ∣ t2.hi) (d3 : (A : Int) ∣ t3.hi) (x e : Int) (hx : 0 ≤ x)
    (h1 : e < t1.hi) (h2 : e < t2.hi) (h3 : e < t3.hi) (k : Int) (hk : x ≤ A * k) (hk' : A * k ≤ e) :
    Peeled A x e (peelFn t1 t2 t3 A x e) := by
  rw [peelFn_eq b1 b2 b3 hA hx (by omega) (by omega) (by omega) (by omega) h1 h2 h3 hA2 fun hd =>
    ⟨room hA d1 hd hk hk' h1, room hA d2 hd hk hk' h2, room hA d3 hd hk hk' h3⟩]
  exact C37_partial t1 A hA d1 x e hx h1 k hk hk'

/-- `long` counter, `int` end, as in the particle simulation. -/
example : Peeled 8 3 29 (peelFn (.signed 64) (.signed 32) (.signed 32) 8 3 29) :=
  C37_function_partial _ _ _ (by decide) (by decide) (by decide) 8 (by decide) (by decide) ⟨2 ^ 60, by decide⟩ ⟨2 ^ 28, by decide⟩
    ⟨2 ^ 28, by decide⟩ 3 29 (by decide) (by decide) (by decide) (by decide) 1 (by decide) (by decide)

/-- `size_t` counter, `int` end, `long` parameter, at the upper end of the range of `int`. -/
example : Peeled 16 2147483600 2147483640 (peelFn (.unsigned 64) (.signed 32) (.signed 64) 16 2147483600 2147483640) :=
  C37_function_partial _ _ _ (by decide) (by decide) (by decide) 16 (by decide) (by decide) ⟨2 ^ 60, by decide⟩ ⟨2 ^ 27, by decide⟩
    ⟨2 ^ 59, by decide⟩ 2147483600 2147483640 (by decide) (by decide) (by decide) (by decide) 134217725 (by decide) (by decide)

/-- C37 is false for a signed counter and an unsigned end: a range which begins below zero is skipped altogether, as the comparison with
    the end converts the counter. -/
theorem C37_function_false : peelFn (.signed 32) (.unsigned 32) (.unsigned 32) 4 (-4) 8 = some ([], -4) ∧
    ¬ Peeled 4 (-4) 8 (peelFn (.signed 32) (.unsigned 32) (.unsigned 32) 4 (-4) 8) ∧
    Covered 4 (-4) 8 (peelFn (.signed 32) (.signed 32) (.signed 32) 4 (-4) 8) := by
  have h : peelFn (.signed 32) (.unsigned 32) (.unsigned 32) 4 (-4) 8 = some ([], -4) := by decide
  refine ⟨h, ?_, ⟨[(4, -4), (4, 0), (4, 4)], by decide, by decide, by decide⟩⟩
  rintro ⟨calls, h', _⟩
  rw [h] at h'
  simp at h'

/-- In ranges without a multiple of the arity, the function overruns the end just like the macro. -/
theorem C37_function_false_exact (t1 t2 t3 : CTy) (b1 : 0 < t1.bits) (b2 : 0 < t2.bits) (b3 : 0 < t3.bits) (A : Nat)
    (x e : Int) (hx : 0 ≤ x) (hxe : x ≤ e) (k : Int) (hk : A * k < x) (hk' : e < A * (k + 1))
    (h1 : e + 2 * A < t1.hi) (h2 : e + 2 * A < t2.hi) (h3 : e + 2 * A < t3.hi) :
    ∃ calls, peelFn t1 t2 t3 A x e = some (calls, A * (k + 1)) ∧ visits calls = iota x (A * (k + 1) - x).toNat ∧
      ∀ c ∈ calls, (c.1 = 1 ∨ c.1 = A) ∧ (c.1 = A → (A : Int) ∣ c.2) := by
  have e1 : (A : Int) * (k + 1) = A * k + A := by rw [Int.mul_add, Int.mul_one]
  rw [peelFn_eq b1 b2 b3 (by omega) hx (by omega) (by omega) (by omega) (by omega) (by omega) (by omega) (by omega) (by omega)
    fun _ => ⟨by omega, by omega, by omega⟩]
  exact C37_false_exact t1 A x e hx hxe k hk hk' h1

example := C37_function_false_exact (.signed 64) (.signed 32) (.signed 64) (by decide) (by decide) (by decide) 8 1105 1105 (by decide)
  (by decide) 138 (by decide) (by decide) (by decide) (by decide) (by decide)

end LFA
