import Verif.LoopPeeler

/-
  The function template `loop_peeler` (loop_peeler.hpp:100-117), whose counter and end may be of different types: examples are calls with
  `long` and `int` (examples/smoothed_particle_hydrodynamics/kernels.hpp:67 and 92-95).
-/
namespace LFA.Peel

/-- Conversion to a type: modulo `2 ^ bits` (implementation-defined for signed types before C++20, but all compilers do this). -/
def CTy.conv (t : CTy) (i : Int) : Int :=
  match t with
  | .signed w => (i + 2 ^ (w - 1)) % 2 ^ w - 2 ^ (w - 1)
  | .unsigned w => i % 2 ^ w

/-- Usual arithmetic conversions: type of `a + b` for operands of these types (of at least the rank of `int`). -/
def CTy.common : CTy → CTy → CTy
  | .signed a, .signed b => .signed (max a b)
  | .unsigned a, .unsigned b => .unsigned (max a b)
  | .signed a, .unsigned b | .unsigned b, .signed a => if a ≤ b then .unsigned b else .signed a

/-- `a < b` for operands of types `t1` and `t2`. -/
def ltC (t1 t2 : CTy) (a b : Int) : Bool := decide ((t1.common t2).conv a < (t1.common t2).conv b)

/-- `COUNTER_TYPE2 remainder = (*counter) % COUNTER_TYPE2(ARITY)` (loop_peeler.hpp:107). -/
def remainderFn (t1 t2 : CTy) (A : Nat) (x : Int) : Int :=
  t2.conv (((t1.common t2).conv x).tmod ((t1.common t2).conv (t2.conv A)))

/-- `next_stop` (loop_peeler.hpp:108-110): computed in the common type, then converted. -/
def nextStopFn (t1 t2 : CTy) (A : Nat) (x : Int) : Option Int :=
  if remainderFn t1 t2 A x ≠ 0 then
    match (t1.common t2).norm ((t1.common t2).conv x + (t1.common t2).conv (t2.conv A)) with
    | none => none
    | some y => ((t1.common t2).norm (y - (t1.common t2).conv (remainderFn t1 t2 A x))).map t2.conv
  else some (t2.conv ((t1.common t2).conv x))

/-- The lambda: `for (; *x < end; *x += ARITY) body(*x)`, where the counter is of type `t1` and the lambda's parameter `end` of type `t3`. -/
def loopFn (t1 t3 : CTy) (A : Nat) : Nat → Int → Int → Option (List (Nat × Int) × Int)
  | 0, _, _ => none
  | fuel + 1, x, e =>
    if ltC t1 t3 x e then
      match t1.norm (x + A) with
      | none => none
      | some x' =>
        match loopFn t1 t3 A fuel x' e with
        | none => none
        | some (calls, x'') => some ((A, x) :: calls, x'')
    else some ([], x)

/-- `lambda(..., counter, stop)`: `stop` is converted to the type of the lambda's parameter. -/
def callFn (t1 t3 : CTy) (A : Nat) (x stop : Int) : Option (List (Nat × Int) × Int) :=
  loopFn t1 t3 A ((t3.conv stop - x).toNat + 1) x (t3.conv stop)

/-- `loop_peeler<SHORT_VEC>(&x, e, lambda)` (loop_peeler.hpp:100-117): COUNTER_TYPE1 is `t1`, COUNTER_TYPE2 is `t2`, and the last parameter
    of the lambda is of type `t3`. -/
def peelFn (t1 t2 t3 : CTy) (A : Nat) (x e : Int) : Option (List (Nat × Int) × Int) :=
  match nextStopFn t1 t2 A x, lastStop t2 A e with
  | some next, some last =>
    match callFn t1 t3 1 x next with
    | none => none
    | some (c1, x) =>
      match callFn t1 t3 A x last with
      | none => none
      | some (c2, x) =>
        match callFn t1 t3 1 x e with
        | none => none
        | some (c3, x) => some (c1 ++ c2 ++ c3, x)
  | _, _ => none

/-! ### Proofs -/

theorem CTy.lo_nonpos (t : CTy) : t.lo ≤ 0 := by
  cases t with
  | signed w =>
    simp only [CTy.lo]
    have : (0 : Int) < 2 ^ (w - 1) := Int.pow_pos (by decide)
    omega
  | unsigned w => simp [CTy.lo]

/-- Values which a type has are not changed by conversion to it. -/
theorem conv_ok {t : CTy} (hb : 0 < t.bits) {i : Int} (h1 : 0 ≤ i) (h2 : i < t.hi) : t.conv i = i := by
  cases t with
  | signed w =>
    simp only [CTy.hi, CTy.conv, CTy.bits] at *
    have hp : (0 : Int) < 2 ^ (w - 1) := Int.pow_pos (by decide)
    cases w with
    | zero => exact absurd hb (by decide)
    | succ w =>
      simp only [Nat.add_sub_cancel] at *
      have : (2 : Int) ^ (w + 1) = 2 * 2 ^ w := by rw [Int.pow_succ]; omega
      rw [Int.emod_eq_of_lt (by omega) (by omega)]
      omega
  | unsigned w =>
    simp only [CTy.hi, CTy.conv] at *
    exact Int.emod_eq_of_lt h1 h2

theorem common_bits {t1 t2 : CTy} (h1 : 0 < t1.bits) (h2 : 0 < t2.bits) : 0 < (t1.common t2).bits := by
  cases t1 <;> cases t2 <;> simp only [CTy.common] <;> first | (simp only [CTy.bits] at *; omega) | (split <;> assumption)

theorem pow_mono {a b : Nat} (h : a ≤ b) : (2 : Int) ^ a ≤ 2 ^ b := by
  have := Nat.pow_le_pow_right (show 0 < 2 by decide) h
  exact_mod_cast this

/-- The common type has all nonnegative values of both types. -/
theorem common_hi (t1 t2 : CTy) : t1.hi ≤ (t1.common t2).hi ∧ t2.hi ≤ (t1.common t2).hi := by
  cases t1 <;> cases t2 <;> simp only [CTy.common]
  · exact ⟨pow_mono (by omega), pow_mono (by omega)⟩
  · split
    · exact ⟨pow_mono (by omega), Int.le_refl _⟩
    · exact ⟨Int.le_refl _, pow_mono (by omega)⟩
  · split
    · exact ⟨Int.le_refl _, pow_mono (by omega)⟩
    · exact ⟨pow_mono (by omega), Int.le_refl _⟩
  · exact ⟨pow_mono (by omega), pow_mono (by omega)⟩

theorem ltC_ok {t1 t3 : CTy} (b1 : 0 < t1.bits) (b3 : 0 < t3.bits) {x e : Int} (hx : 0 ≤ x) (hx' : x < t1.hi) (he : 0 ≤ e)
    (he' : e < t3.hi) : ltC t1 t3 x e = decide (x < e) := by
  have h := common_hi t1 t3
  rw [ltC, conv_ok (common_bits b1 b3) hx (by omega), conv_ok (common_bits b1 b3) he (by omega)]

theorem loopFn_ok {t1 t3 : CTy} (b1 : 0 < t1.bits) (b3 : 0 < t3.bits) {A : Nat} {e : Int} (he : 0 ≤ e) (he' : e < t3.hi) :
    ∀ (fuel : Nat) {x : Int}, 0 ≤ x → x < t1.hi → loopFn t1 t3 A fuel x e = loop t1 A fuel x e := by
  intro fuel
  induction fuel with
  | zero => exact fun _ _ => rfl
  | succ fuel ih =>
    intro x hx hx'
    simp only [loopFn, loop]
    rw [ltC_ok b1 b3 hx hx' he he']
    by_cases h : x < e
    · rw [if_pos (decide_eq_true h), if_pos h]
      cases hn : t1.norm (x + A) with
      | none => rfl
      | some x' =>
        have : 0 ≤ x' ∧ x' < t1.hi := by
          cases t1 with
          | signed w =>
            simp only [CTy.norm] at hn
            split at hn
            · rename_i hh
              simp only [Option.some.injEq] at hn
              simp only [CTy.hi]
              omega
            · exact absurd hn (by simp)
          | unsigned w =>
            simp only [CTy.norm, Option.some.injEq] at hn
            subst hn
            have : (0 : Int) < 2 ^ w := Int.pow_pos (by decide)
            exact ⟨Int.emod_nonneg _ (by omega), Int.emod_lt_of_pos _ this⟩
        simp only
        rw [ih this.1 this.2]
        cases loop t1 A fuel x' e <;> rfl
    · rw [if_neg (by simpa using h), if_neg h]

/-- The counter stays in the range of its type. -/
theorem loop_range {t : CTy} {A : Nat} {e : Int} : ∀ (fuel : Nat) {x : Int} {c : List (Nat × Int)} {x' : Int}, 0 ≤ x → x < t.hi →
    loop t A fuel x e = some (c, x') → 0 ≤ x' ∧ x' < t.hi := by
  intro fuel
  induction fuel with
  | zero => exact fun _ _ h => absurd h (by simp [loop])
  | succ fuel ih =>
    intro x c x' hx hx' h
    simp only [loop] at h
    split at h
    · cases hn : t.norm (x + A) with
      | none => rw [hn] at h; simp at h
      | some y =>
        rw [hn] at h
        simp only at h
        have hy : 0 ≤ y ∧ y < t.hi := by
          cases t with
          | signed w =>
            simp only [CTy.norm] at hn
            split at hn
            · rename_i hh
              simp only [Option.some.injEq] at hn
              simp only [CTy.hi]
              omega
            · exact absurd hn (by simp)
          | unsigned w =>
            simp only [CTy.norm, Option.some.injEq] at hn
            subst hn
            have : (0 : Int) < 2 ^ w := Int.pow_pos (by decide)
            exact ⟨Int.emod_nonneg _ (by omega), Int.emod_lt_of_pos _ this⟩
        cases hl : loop t A fuel y e with
        | none => rw [hl] at h; simp at h
        | some q =>
          rw [hl] at h
          simp only [Option.some.injEq, Prod.mk.injEq] at h
          rw [← h.2]
          exact ih hy.1 hy.2 hl
    · simp only [Option.some.injEq, Prod.mk.injEq] at h
      omega

theorem callFn_ok {t1 t3 : CTy} (b1 : 0 < t1.bits) (b3 : 0 < t3.bits) {A : Nat} {x e : Int} (he : 0 ≤ e) (he' : e < t3.hi)
    (hx : 0 ≤ x) (hx' : x < t1.hi) : callFn t1 t3 A x e = loop' t1 A x e := by
  rw [callFn, conv_ok b3 he he', loopFn_ok b1 b3 he he' _ hx hx', loop']

/-- For nonnegative values which all types have, the function does what the macro does. -/
theorem peelFn_eq {t1 t2 t3 : CTy} (b1 : 0 < t1.bits) (b2 : 0 < t2.bits) (b3 : 0 < t3.bits) {A : Nat} (hA : 0 < A) {x e : Int}
    (hx : 0 ≤ x) (he : 0 ≤ e) (hx1 : x < t1.hi) (hx2 : x < t2.hi) (hx3 : x < t3.hi) (he1 : e < t1.hi) (he2 : e < t2.hi) (he3 : e < t3.hi)
    (hA2 : (A : Int) < t2.hi) (h1 : ¬ (A : Int) ∣ x → x + A < t1.hi ∧ x + A < t2.hi ∧ x + A < t3.hi) :
    peelFn t1 t2 t3 A x e = peel t1 A x e := by
  have hc := common_hi t1 t2
  have bc := common_bits b1 b2
  have hA' : (0 : Int) < A := by omega
  have hr0 := Int.emod_nonneg x (show (A : Int) ≠ 0 by omega)
  have hr1 := Int.emod_lt_of_pos x hA'
  have hr : remainderFn t1 t2 A x = x % A := by
    rw [remainderFn, conv_ok b2 (show (0 : Int) ≤ A by omega) hA2, conv_ok bc hx (by omega), conv_ok bc (by omega) (by omega),
      Int.tmod_eq_emod_of_nonneg hx, conv_ok b2 hr0 (by omega)]
  -- both compute the same stops
  obtain ⟨n, hn1, hn2, hn3, hn4⟩ : ∃ n, nextStopFn t1 t2 A x = some n ∧ nextStop t1 A x = some n ∧ 0 ≤ n ∧ n < t3.hi := by
    unfold nextStopFn nextStop
    rw [hr, Int.tmod_eq_emod_of_nonneg hx]
    by_cases h : x % A = 0
    · refine ⟨x, ?_, ?_, hx, hx3⟩
      · rw [if_neg (by simpa using h), conv_ok bc hx (by omega), conv_ok b2 hx hx2]
      · exact if_neg (by simpa using h)
    · have hd : ¬ (A : Int) ∣ x := fun hd => h (Int.emod_eq_zero_of_dvd hd)
      obtain ⟨g1, g2, g3⟩ := h1 hd
      have l1 := CTy.lo_nonpos t1
      have lc := CTy.lo_nonpos (t1.common t2)
      refine ⟨x + A - x % A, ?_, ?_, by omega, by omega⟩
      · rw [if_pos h, conv_ok bc hx (by omega), conv_ok b2 (show (0 : Int) ≤ A by omega) hA2, conv_ok bc (by omega) (by omega),
          norm_ok (by omega) (by omega)]
        simp only
        rw [conv_ok bc hr0 (by omega), norm_ok (by omega) (by omega), Option.map_some, conv_ok b2 (by omega) (by omega)]
      · rw [if_pos h, norm_ok (by omega) (by omega)]
        exact norm_ok (by omega) (by omega)
  have hl : ∀ t : CTy, e < t.hi → lastStop t A e = some (e - e % A) := by
    intro t ht
    have := Int.emod_nonneg e (show (A : Int) ≠ 0 by omega)
    have h2 : e % A ≤ e := by
      have := Int.mul_ediv_add_emod e A
      have := Int.mul_nonneg (Int.le_of_lt hA') (Int.ediv_nonneg he (Int.le_of_lt hA'))
      omega
    have := CTy.lo_nonpos t
    unfold lastStop
    rw [Int.tmod_eq_emod_of_nonneg he, norm_ok (by omega) (by omega)]
  have hl0 : 0 ≤ e - e % A ∧ e - e % A ≤ e := by
    have := Int.emod_nonneg e (show (A : Int) ≠ 0 by omega)
    have := Int.mul_ediv_add_emod e A
    have := Int.mul_nonneg (Int.le_of_lt hA') (Int.ediv_nonneg he (Int.le_of_lt hA'))
    omega
  unfold peelFn peel
  rw [hn1, hn2, hl t2 he2, hl t1 he1]
  simp only
  rw [callFn_ok b1 b3 hn3 hn4 hx hx1]
  cases hc1 : loop' t1 1 x n with
  | none => rfl
  | some q1 =>
    obtain ⟨c1, y1⟩ := q1
    have r1 := loop_range _ hx hx1 hc1
    simp only
    rw [callFn_ok b1 b3 hl0.1 (by omega) r1.1 r1.2]
    cases hc2 : loop' t1 A y1 (e - e % A) with
    | none => rfl
    | some q2 =>
      obtain ⟨c2, y2⟩ := q2
      have r2 := loop_range _ r1.1 r1.2 hc2
      simp only
      rw [callFn_ok b1 b3 he he3 r2.1 r2.2]
      cases loop' t1 1 y2 e <;> rfl

end LFA.Peel
