import Verif.LoopPeeler
import Mathlib.Algebra.Order.Ring.Int

/-
  Properties of the loop peeler (C37).
-/
namespace LFA
open Peel

/-- What C37 demands of a run from `x` to `e`: each index is processed once, in ascending order, vectorized calls are aligned, the
    counter has the value `e` afterwards, and fewer than `2 * A` calls are not vectorized. -/
def Peeled (A : Nat) (x e : Int) (r : Option (List (Nat × Int) × Int)) : Prop :=
  ∃ calls, r = some (calls, e) ∧ visits calls = iota x (e - x).toNat ∧
    (∀ c ∈ calls, (c.1 = 1 ∨ c.1 = A) ∧ (c.1 = A → (A : Int) ∣ c.2)) ∧
    (calls.filter fun c => decide (c.1 ≠ A)).length < 2 * A

/-- C37: for each counter type, arity (all of which are powers of two, so they divide the range of the type) and each range that
    contains a multiple of the arity (its end included). Missing: ranges which do not (C37_false). -/
theorem C37_partial (t : CTy) (A : Nat) (hA : 0 < A) (hpow : (A : Int) ∣ t.hi) (x e : Int) (hx : 0 ≤ x) (he : e < t.hi)
    (k : Int) (h1 : x ≤ A * k) (h2 : A * k ≤ e) : Peeled A x e (peel t A x e) := by
  have hA' : (0 : Int) < A := by omega
  have hlo : t.lo ≤ 0 := by
    cases t with
    | signed w =>
      simp only [CTy.lo]
      have : (0 : Int) < 2 ^ (w - 1) := Int.pow_pos (by decide)
      generalize (2 : Int) ^ (w - 1) = z at *
      omega
    | unsigned w => simp [CTy.lo]
  obtain ⟨q, hq⟩ := hpow
  -- round up
  let m := (x + (A - 1)) / A
  have hm1 : x ≤ A * m := by
    have := Int.mul_ediv_add_emod (x + (A - 1)) A
    have := Int.emod_lt_of_pos (x + (A - 1)) hA'
    show x ≤ A * ((x + (A - 1)) / A)
    omega
  have hm2 : A * m < x + A := by
    have := Int.mul_ediv_add_emod (x + (A - 1)) A
    have := Int.emod_nonneg (x + (A - 1)) (show (A : Int) ≠ 0 by omega)
    show A * ((x + (A - 1)) / A) < x + A
    omega
  have hmk : A * m ≤ A * k := by
    rcases Int.lt_or_le k m with h | h
    · have : A * (k + 1) ≤ A * m := Int.mul_le_mul_of_nonneg_left (by omega) (by omega)
      rw [Int.mul_add, Int.mul_one] at this
      omega
    · exact Int.mul_le_mul_of_nonneg_left h (by omega)
  let l := e / A
  have hl1 : A * l ≤ e := by
    have := Int.mul_ediv_add_emod e A
    have := Int.emod_nonneg e (show (A : Int) ≠ 0 by omega)
    show A * (e / A) ≤ e
    omega
  have hl2 : e < A * l + A := by
    have := Int.mul_ediv_add_emod e A
    have := Int.emod_lt_of_pos e hA'
    show e < A * (e / A) + A
    omega
  have hml : m ≤ l := by
    rcases Int.lt_or_le l m with h | h
    · have : A * (l + 1) ≤ A * m := Int.mul_le_mul_of_nonneg_left (by omega) (by omega)
      rw [Int.mul_add, Int.mul_one] at this
      omega
    · exact h
  have hlast : lastStop t A e = some (A * l) := by
    unfold lastStop
    have : e - e.tmod A = A * l := by
      rw [Int.tmod_eq_emod_of_nonneg (by omega)]
      have := Int.mul_ediv_add_emod e A
      show _ = A * (e / A)
      omega
    rw [this]
    exact norm_ok (by have : (0 : Int) ≤ A * m := by omega
                      have := Int.mul_le_mul_of_nonneg_left hml (show (0 : Int) ≤ A by omega)
                      omega) (by omega)
  have hnext : nextStop t A x = some (A * m) := by
    unfold nextStop
    dsimp only
    rw [Int.tmod_eq_emod_of_nonneg hx]
    have hd := Int.mul_ediv_add_emod x A
    have hn := Int.emod_nonneg x (show (A : Int) ≠ 0 by omega)
    have hlt := Int.emod_lt_of_pos x hA'
    split
    · rename_i hr
      have hm : m = x / A + 1 := by
        have e1 : A * m = A * (x / A) + A * (m - x / A) := by rw [Int.mul_sub]; omega
        rcases Int.lt_trichotomy (m - x / A) 1 with h | h | h
        · have := Int.mul_le_mul_of_nonneg_left (show m - x / A ≤ 0 by omega) (show (0 : Int) ≤ A by omega)
          omega
        · omega
        · have := Int.mul_le_mul_of_nonneg_left (show 2 ≤ m - x / A by omega) (show (0 : Int) ≤ A by omega)
          omega
      have hmA : A * m = A * (x / A) + A := by rw [hm, Int.mul_add, Int.mul_one]
      -- no overflow
      have hmq : m < q := by
        rcases Int.lt_or_le m q with h | h
        · exact h
        · have := Int.mul_le_mul_of_nonneg_left h (show (0 : Int) ≤ A by omega)
          omega
      have hfit : A * m + A ≤ t.hi := by
        have := Int.mul_le_mul_of_nonneg_left (show m + 1 ≤ q by omega) (show (0 : Int) ≤ A by omega)
        rw [Int.mul_add, Int.mul_one] at this
        omega
      rw [norm_ok (by omega) (by omega)]
      simp only
      rw [show x + A - x % A = A * m by omega]
      exact norm_ok (by omega) (by omega)
    · rename_i hr
      have : A * m = x := by
        have hr' : x % A = 0 := by omega
        have e1 : A * m = A * (x / A) + A * (m - x / A) := by rw [Int.mul_sub]; omega
        rcases Int.lt_trichotomy (m - x / A) 0 with h | h | h
        · have := Int.mul_le_mul_of_nonneg_left (show m - x / A ≤ -1 by omega) (show (0 : Int) ≤ A by omega)
          omega
        · rw [h] at e1; omega
        · have := Int.mul_le_mul_of_nonneg_left (show 1 ≤ m - x / A by omega) (show (0 : Int) ≤ A by omega)
          omega
      rw [this]
  -- the three loops
  have hAml := Int.mul_le_mul_of_nonneg_left hml (show (0 : Int) ≤ A by omega)
  obtain ⟨n1, hn1⟩ : ∃ n : Nat, A * m = x + (n * 1 : Nat) := ⟨(A * m - x).toNat, by omega⟩
  obtain ⟨n2, hn2⟩ : ∃ n : Nat, A * l = A * m + (n * A : Nat) := ⟨(l - m).toNat, by
    push_cast
    rw [Int.toNat_of_nonneg (by omega), Int.sub_mul, Int.mul_comm l, Int.mul_comm m]; omega⟩
  obtain ⟨n3, hn3⟩ : ∃ n : Nat, e = A * l + (n * 1 : Nat) := ⟨(e - A * l).toNat, by omega⟩
  have r1 : loop' t 1 x (A * m) = some ((List.range n1).map fun (i : Nat) => (1, x + (i * 1 : Nat)), A * m) := by
    unfold loop'
    rw [hn1]
    exact loop_ok 1 (by omega) n1 _ x (by omega) (by omega) (by omega)
  have r2 : loop' t A (A * m) (A * l) = some ((List.range n2).map fun (i : Nat) => (A, A * m + (i * A : Nat)), A * l) := by
    unfold loop'
    rw [hn2]
    refine loop_ok A hA n2 _ _ ?_ (by omega) (by omega)
    have := Nat.le_mul_of_pos_right n2 hA
    omega
  have r3 : loop' t 1 (A * l) e = some ((List.range n3).map fun (i : Nat) => (1, A * l + (i * 1 : Nat)), e) := by
    have := loop_ok (t := t) 1 (by omega) n3 ((e - A * l).toNat + 1) (A * l) (by omega) (by omega) (by omega)
    rw [← hn3] at this
    exact this
  refine ⟨((List.range n1).map fun (i : Nat) => (1, x + (i * 1 : Nat))) ++ ((List.range n2).map fun (i : Nat) => (A, A * m + (i * A : Nat)))
      ++ ((List.range n3).map fun (i : Nat) => (1, A * l + (i * 1 : Nat))), ?_, ?_, ?_, ?_⟩
  · unfold peel
    rw [hnext, hlast]
    simp only
    rw [r1]
    simp only
    rw [r2]
    simp only
    rw [r3]
  · rw [visits_append, visits_append, visits_loop, visits_loop, visits_loop]
    have : (e - x).toNat = n1 * 1 + n2 * A + n3 * 1 := by omega
    rw [this, iota_add, iota_add]
    congr 2
    · congr 1
    · congr 1; push_cast at *; omega
  · intro c hc
    rw [List.mem_append, List.mem_append, List.mem_map, List.mem_map, List.mem_map] at hc
    rcases hc with (⟨i, _, rfl⟩ | ⟨i, _, rfl⟩) | ⟨i, _, rfl⟩
    · exact ⟨.inl rfl, fun h => ⟨x + (i * 1 : Nat), by simp only at h ⊢; rw [← h]; push_cast; omega⟩⟩
    · refine ⟨.inr rfl, fun _ => ⟨m + i, ?_⟩⟩
      rw [Int.mul_add]; push_cast; rw [Int.mul_comm (i : Int)]
    · exact ⟨.inl rfl, fun h => ⟨A * l + (i * 1 : Nat), by simp only at h ⊢; rw [← h]; push_cast; omega⟩⟩
  · rw [List.filter_append, List.filter_append, List.length_append, List.length_append]
    have h2 : (((List.range n2).map fun (i : Nat) => (A, A * m + (i * A : Nat))).filter fun c => decide (c.1 ≠ A)) = [] := by
      rw [List.filter_eq_nil_iff]
      intro c hc
      rw [List.mem_map] at hc
      obtain ⟨i, _, rfl⟩ := hc
      simp
    rw [h2]
    have h1 := List.length_filter_le (fun c : Nat × Int => decide (c.1 ≠ A)) ((List.range n1).map fun (i : Nat) => (1, x + (i * 1 : Nat)))
    have h3 := List.length_filter_le (fun c : Nat × Int => decide (c.1 ≠ A)) ((List.range n3).map fun (i : Nat) => (1, A * l + (i * 1 : Nat)))
    simp only [List.length_map, List.length_range, List.length_nil] at *
    omega

/-- For instance: `size_t`, arity 8, from 3 to 29. -/
example : Peeled 8 3 29 (peel (.unsigned 64) 8 3 29) :=
  C37_partial (.unsigned 64) 8 (by decide) ⟨2 ^ 61, by decide⟩ 3 29 (by decide) (by decide) 1 (by decide) (by decide)

example : (peel (.unsigned 64) 8 3 18) =
    some ([(1, 3), (1, 4), (1, 5), (1, 6), (1, 7), (8, 8), (1, 16), (1, 17)], 18) := by decide

/-- For instance: `int`, near the largest value. -/
example : Peeled 16 2147483600 2147483640 (peel (.signed 32) 16 2147483600 2147483640) :=
  C37_partial (.signed 32) 16 (by decide) ⟨2 ^ 27, by decide⟩ 2147483600 2147483640 (by decide) (by decide) 134217725 (by decide) (by decide)

/-- C37 is false: a range without a multiple of the arity is left: with arity 8 and the range [1, 3) the body is called for the
    indices 3 to 7, too, and the counter ends up at 8. -/
theorem C37_false : peel (.unsigned 64) 8 1 3 = some ([(1, 1), (1, 2), (1, 3), (1, 4), (1, 5), (1, 6), (1, 7)], 8) ∧
    ¬ Peeled 8 1 3 (peel (.unsigned 64) 8 1 3) := by
  have h : peel (.unsigned 64) 8 1 3 = some ([(1, 1), (1, 2), (1, 3), (1, 4), (1, 5), (1, 6), (1, 7)], 8) := by decide
  refine ⟨h, ?_⟩
  rintro ⟨calls, h', _⟩
  rw [h] at h'
  simp at h'

/-- C37 is false for every range without a multiple of the arity, not just for the one above: the counter passes the end. -/
theorem C37_false_all (t : CTy) (A : Nat) (hA : 0 < A) (x e : Int) (hx : 0 ≤ x) (hxe : x ≤ e)
    (hno : ∀ k : Int, ¬ (x ≤ A * k ∧ A * k ≤ e)) (hfit : e + 2 * A < t.hi) :
    ∃ calls x', peel t A x e = some (calls, x') ∧ e < x' ∧ e ∈ visits calls ∧ ¬ Peeled A x e (peel t A x e) := by
  have hA' : (0 : Int) < A := by omega
  have hlo : t.lo ≤ 0 := by
    cases t with
    | signed w =>
      simp only [CTy.lo]
      have : (0 : Int) < 2 ^ (w - 1) := Int.pow_pos (by decide)
      generalize (2 : Int) ^ (w - 1) = z at *
      omega
    | unsigned w => simp [CTy.lo]
  have hd := Int.mul_ediv_add_emod x A
  have hn := Int.emod_nonneg x (show (A : Int) ≠ 0 by omega)
  have hlt := Int.emod_lt_of_pos x hA'
  have hed := Int.mul_ediv_add_emod e A
  have hen := Int.emod_nonneg e (show (A : Int) ≠ 0 by omega)
  have helt := Int.emod_lt_of_pos e hA'
  have h0 := hno (x / A)
  have h1 := hno (x / A + 1)
  rw [Int.mul_add, Int.mul_one] at h1
  have hel : A * (e / A) < x := by
    rcases Int.lt_or_le (A * (e / A)) x with h | h
    · exact h
    · exact absurd ⟨h, by omega⟩ (hno (e / A))
  have hnext : nextStop t A x = some (A * (x / A) + A) := by
    unfold nextStop
    dsimp only
    rw [Int.tmod_eq_emod_of_nonneg hx]
    split
    · rw [norm_ok (by omega) (by omega)]
      simp only
      rw [show x + A - x % A = A * (x / A) + A by omega]
      exact norm_ok (by omega) (by omega)
    · omega
  have hlast : lastStop t A e = some (A * (e / A)) := by
    unfold lastStop
    rw [Int.tmod_eq_emod_of_nonneg (by omega), show e - e % A = A * (e / A) by omega]
    have := Int.mul_nonneg (show (0 : Int) ≤ A by omega) (Int.ediv_nonneg (show 0 ≤ e by omega) (show (0 : Int) ≤ A by omega))
    exact norm_ok (by omega) (by omega)
  generalize A * (e / A) = last at *
  generalize A * (x / A) = base at *
  obtain ⟨n1, hn1⟩ : ∃ n : Nat, base + A = x + (n * 1 : Nat) := ⟨(base + A - x).toNat, by omega⟩
  have r1 : loop' t 1 x (base + A) = some ((List.range n1).map fun (i : Nat) => (1, x + (i * 1 : Nat)), base + A) := by
    have := loop_ok (t := t) 1 (by omega) n1 ((base + A - x).toNat + 1) x (by omega) (by omega) (by omega)
    rw [← hn1] at this
    exact this
  have stop : ∀ (B : Nat) (y z : Int), z ≤ y → loop' t B y z = some ([], y) := by
    intro B y z h
    unfold loop'
    simp only [loop]
    rw [if_neg (by omega)]
  have hp : peel t A x e = some ((List.range n1).map fun (i : Nat) => (1, x + (i * 1 : Nat)), base + A) := by
    unfold peel
    rw [hnext, hlast]
    simp only
    rw [r1]
    simp only
    rw [stop A _ _ (by omega)]
    simp only
    rw [stop 1 _ _ (by omega)]
    simp only [List.append_nil]
  refine ⟨_, _, hp, by omega, ?_, ?_⟩
  · rw [visits_loop]
    unfold iota
    rw [List.mem_map]
    exact ⟨(e - x).toNat, List.mem_range.2 (by omega), by omega⟩
  · rintro ⟨calls, h', _⟩
    rw [hp] at h'
    simp only [Option.some.injEq, Prod.mk.injEq] at h'
    omega

example : ∃ calls x', peel (.unsigned 64) 16 33 47 = some (calls, x') ∧ 47 < x' ∧ 47 ∈ visits calls ∧
    ¬ Peeled 16 33 47 (peel (.unsigned 64) 16 33 47) :=
  C37_false_all (.unsigned 64) 16 (by decide) 33 47 (by decide) (by decide) (by omega) (by decide)

/-- C37 is false for a negative end of the range: `%` rounds towards zero, and the vectorized loop passes the end. -/
theorem C37_false_negative : peel (.signed 32) 4 (-8) (-3) = some ([(4, -8), (4, -4)], 0) := by decide

/-- The part of C37 about coverage: each index of the range is processed once, in ascending order, vectorized calls are aligned, and
    the counter has the value `e` afterwards. -/
def Covered (A : Nat) (x e : Int) (r : Option (List (Nat × Int) × Int)) : Prop :=
  ∃ calls, r = some (calls, e) ∧ visits calls = iota x (e - x).toNat ∧
    ∀ c ∈ calls, (c.1 = 1 ∨ c.1 = A) ∧ (c.1 = A → (A : Int) ∣ c.2)

/-- One of the three loops: a loop from `x` to `z`, both of which may be in any order. -/
theorem loop'_run {t : CTy} (B : Nat) (hB : 0 < B) {x z : Int} (h : x ≤ z → (B : Int) ∣ z - x) (hlo : t.lo ≤ x) (hhi : z < t.hi) :
    ∃ calls, loop' t B x z = some (calls, max x z) ∧ visits calls = iota x (max x z - x).toNat ∧
      ∀ c ∈ calls, c.1 = B ∧ (B : Int) ∣ c.2 - x := by
  rcases Int.lt_or_le z x with hlt | hle
  · refine ⟨[], ?_, ?_, by simp⟩
    · unfold loop'
      simp only [loop]
      rw [if_neg (by omega), show max x z = x by omega]
    · rw [show (max x z - x).toNat = 0 by omega]; rfl
  · obtain ⟨q, hq⟩ := h hle
    have hq0 : 0 ≤ q := by
      rcases Int.lt_or_le q 0 with h' | h'
      · have : (B : Int) * q < 0 := Int.mul_neg_of_pos_of_neg (by omega) h'
        omega
      · exact h'
    obtain ⟨n, rfl⟩ : ∃ n : Nat, q = n := ⟨q.toNat, by omega⟩
    have hz : z = x + (n * B : Nat) := by push_cast; rw [Int.mul_comm]; omega
    have hn : n ≤ n * B := Nat.le_mul_of_pos_right n hB
    have := loop_ok (t := t) B hB n ((z - x).toNat + 1) x (by omega) hlo (by omega)
    refine ⟨_, ?_, visits_loop B n x |>.trans ?_, ?_⟩
    · unfold loop'
      rw [← hz] at this
      rw [this, show max x z = z by omega]
    · congr 1; omega
    · intro c hc
      rw [List.mem_map] at hc
      obtain ⟨i, _, rfl⟩ := hc
      exact ⟨rfl, ⟨i, by push_cast; rw [Int.mul_comm]; omega⟩⟩

/-- What the peeled loop does, whatever the range: it ends at the largest of both stops and the end. -/
theorem peel_run {t : CTy} {A : Nat} (hA : 0 < A) {x e n l : Int} (hn : nextStop t A x = some n) (hl : lastStop t A e = some l)
    (hxn : x ≤ n) (dn : (A : Int) ∣ n) (dl : (A : Int) ∣ l) (hlo : t.lo ≤ x) (h1 : n < t.hi) (h2 : l < t.hi) (h3 : e < t.hi) :
    ∃ calls, peel t A x e = some (calls, max (max n l) e) ∧ visits calls = iota x (max (max n l) e - x).toNat ∧
      ∀ c ∈ calls, (c.1 = 1 ∨ c.1 = A) ∧ (c.1 = A → (A : Int) ∣ c.2) := by
  obtain ⟨c1, p1, v1, a1⟩ := loop'_run (t := t) 1 (by omega) (x := x) (z := n) (fun _ => ⟨n - x, by omega⟩) hlo h1
  rw [show max x n = n by omega] at p1 v1
  obtain ⟨c2, p2, v2, a2⟩ := loop'_run (t := t) A hA (x := n) (z := l) (fun _ => Int.dvd_sub dl dn) (by omega) h2
  obtain ⟨c3, p3, v3, a3⟩ := loop'_run (t := t) 1 (by omega) (x := max n l) (z := e) (fun _ => ⟨e - max n l, by omega⟩) (by omega) h3
  refine ⟨c1 ++ c2 ++ c3, ?_, ?_, ?_⟩
  · unfold peel
    rw [hn, hl]
    simp only
    rw [p1]
    simp only
    rw [p2]
    simp only
    rw [p3]
  · rw [visits_append, visits_append, v1, v2, v3]
    have e1 : iota n (max n l - n).toNat = iota (x + ((n - x).toNat : Int)) (max n l - n).toNat := by congr 1; omega
    rw [e1, ← iota_add]
    have e2 : iota (max n l) (max (max n l) e - max n l).toNat =
        iota (x + (((n - x).toNat + (max n l - n).toNat : Nat) : Int)) (max (max n l) e - max n l).toNat := by congr 1; omega
    rw [e2, ← iota_add]
    congr 1
    omega
  · intro c hc
    rw [List.append_assoc, List.mem_append, List.mem_append] at hc
    have one : ∀ c : Nat × Int, c.1 = 1 → (c.1 = 1 ∨ c.1 = A) ∧ (c.1 = A → (A : Int) ∣ c.2) := fun c h1 =>
      ⟨.inl h1, fun h => by rw [← h, h1]; exact ⟨c.2, by simp⟩⟩
    rcases hc with hc | hc | hc
    · exact one c (a1 c hc).1
    · refine ⟨.inr (a2 c hc).1, fun _ => ?_⟩
      have := Int.dvd_add (a2 c hc).2 dn
      rwa [show c.2 - n + n = c.2 by omega] at this
    · exact one c (a3 c hc).1

/-- C37, exactly: which ranges are covered, for all counter types, arities and ranges, negative ones included, as long as no
    intermediate result leaves the range of the counter type. A range starting at a negative index which is no multiple of the arity
    has to contain two multiples of it, and a negative end has to be a multiple, as `%` rounds towards zero. -/
theorem C37_iff (t : CTy) (A : Nat) (hA : 0 < A) (x e : Int) (hxe : x ≤ e) (hlo : t.lo ≤ x) (hhi : e + 2 * A < t.hi) :
    Covered A x e (peel t A x e) ↔
      (∃ k : Int, x ≤ A * k ∧ A * k + (if x < 0 ∧ ¬ (A : Int) ∣ x then (A : Int) else 0) ≤ e) ∧ (0 ≤ e ∨ (A : Int) ∣ e) := by
  have hA' : (0 : Int) < A := by omega
  have hz : t.lo ≤ 0 ∧ 0 ≤ t.hi := by
    cases t with
    | signed w =>
      simp only [CTy.lo, CTy.hi]
      have : (0 : Int) < 2 ^ (w - 1) := Int.pow_pos (by decide)
      generalize (2 : Int) ^ (w - 1) = z at *
      omega
    | unsigned w =>
      simp only [CTy.lo, CTy.hi]
      have : (0 : Int) < 2 ^ w := Int.pow_pos (by decide)
      omega
  -- remainders
  have dx : (A : Int) ∣ x - x.tmod A := ⟨x.tdiv A, by have := Int.mul_tdiv_add_tmod x A; omega⟩
  have de : (A : Int) ∣ e - e.tmod A := ⟨e.tdiv A, by have := Int.mul_tdiv_add_tmod e A; omega⟩
  have bx : x.tmod A < A ∧ -A < x.tmod A := ⟨Int.tmod_lt_of_pos x hA', Int.lt_tmod_of_pos x hA'⟩
  have be : e.tmod A < A ∧ -A < e.tmod A := ⟨Int.tmod_lt_of_pos e hA', Int.lt_tmod_of_pos e hA'⟩
  have sx : 0 ≤ x → 0 ≤ x.tmod A := fun h => Int.tmod_nonneg A h
  have le : ∀ y : Int, 0 ≤ y → y.tmod A ≤ y := fun y h => by
    rw [Int.tmod_eq_emod_of_nonneg h]
    have := Int.mul_ediv_add_emod y A
    have := Int.mul_nonneg (show (0 : Int) ≤ A by omega) (Int.ediv_nonneg h (show (0 : Int) ≤ A by omega))
    omega
  have neg : ∀ y : Int, y ≤ 0 → y.tmod A ≤ 0 := fun y h => by
    have := Int.tmod_nonneg A (show 0 ≤ -y by omega)
    rw [Int.neg_tmod] at this
    omega
  have sx' : x ≤ 0 → x.tmod A ≤ 0 := neg x
  have se : 0 ≤ e → 0 ≤ e.tmod A ∧ e.tmod A ≤ e := fun h => ⟨Int.tmod_nonneg A h, le e h⟩
  have se' : e ≤ 0 → e.tmod A ≤ 0 ∧ e ≤ e.tmod A := fun h => ⟨neg e h, by
    have := le (-e) (by omega)
    rw [Int.neg_tmod] at this
    omega⟩
  have sxx : 0 ≤ x → x.tmod A ≤ x := le x
  have hdx : (A : Int) ∣ x ↔ x.tmod A = 0 := Int.dvd_iff_tmod_eq_zero
  have hde : (A : Int) ∣ e ↔ e.tmod A = 0 := Int.dvd_iff_tmod_eq_zero
  have hnext : nextStop t A x = some (if x.tmod A = 0 then x else x - x.tmod A + A) := by
    unfold nextStop
    dsimp only
    by_cases h0 : x.tmod A = 0
    · rw [if_pos h0, if_neg (by simp [h0])]
    · rw [if_neg h0, if_pos h0, norm_ok (by omega) (by omega)]
      simp only
      rw [show x + A - x.tmod A = x - x.tmod A + A by omega]
      rcases Int.lt_or_le x 0 with hx | hx
      · have := sx' (by omega); exact norm_ok (by omega) (by omega)
      · have := sx hx; have := sxx hx; exact norm_ok (by omega) (by omega)
  have hlast : lastStop t A e = some (e - e.tmod A) := by
    unfold lastStop
    rcases Int.lt_or_le e 0 with h | h
    · have := se' (by omega); exact norm_ok (by omega) (by omega)
    · have := se h; exact norm_ok (by omega) (by omega)
  generalize hnx : (if x.tmod A = 0 then x else x - x.tmod A + A) = n at hnext
  have hxn : x ≤ n ∧ (A : Int) ∣ n ∧ n ≤ e + 2 * A := by
    subst hnx
    split
    · rename_i h0; exact ⟨Int.le_refl _, hdx.2 h0, by omega⟩
    · refine ⟨by omega, Int.dvd_add dx (Int.dvd_refl _), ?_⟩
      rcases Int.lt_or_le x 0 with hx | hx
      · have := sx' (by omega); omega
      · have := sx hx; omega
  obtain ⟨calls, p, v, al⟩ := peel_run (t := t) hA hnext hlast hxn.1 hxn.2.1 de hlo (by omega) (by
    rcases Int.lt_or_le e 0 with h | h
    · have := se' (by omega); omega
    · have := se h; omega) (by omega)
  have key : Covered A x e (peel t A x e) ↔ n ≤ e ∧ e - e.tmod A ≤ e := by
    constructor
    · rintro ⟨calls', p', _⟩
      rw [p] at p'
      simp only [Option.some.injEq, Prod.mk.injEq] at p'
      omega
    · rintro ⟨k1, k2⟩
      have hm : max (max n (e - e.tmod A)) e = e := by omega
      rw [hm] at p v
      exact ⟨calls, p, v, al⟩
  rw [key]
  have hmul : ∀ {a b : Int}, (A : Int) ∣ a → (A : Int) ∣ b → a < b → a + A ≤ b := by
    rintro _ _ ⟨i, rfl⟩ ⟨j, rfl⟩ h
    have hij : i < j := Int.lt_of_mul_lt_mul_left h (by omega)
    have : A * (i + 1) ≤ A * j := Int.mul_le_mul_of_nonneg_left (by omega) (by omega)
    rw [Int.mul_add, Int.mul_one] at this
    exact this
  have right : e - e.tmod A ≤ e ↔ (0 ≤ e ∨ (A : Int) ∣ e) := by
    rw [hde]
    rcases Int.lt_or_le e 0 with h | h
    · have := se' (by omega)
      constructor
      · intro _; right; omega
      · rintro (h' | h') <;> omega
    · have := se h
      exact ⟨fun _ => .inl h, fun _ => by omega⟩
  rw [right]
  refine and_congr_left fun _ => ?_
  subst hnx
  by_cases h0 : x.tmod A = 0
  · rw [if_pos h0, if_neg (fun h => h.2 (hdx.2 h0))]
    refine ⟨fun _ => ?_, fun _ => hxe⟩
    obtain ⟨k, hk⟩ := hdx.2 h0
    exact ⟨k, by omega, by omega⟩
  · rw [if_neg h0]
    rcases Int.lt_or_le x 0 with hx | hx
    · rw [if_pos ⟨hx, fun h => h0 (hdx.1 h)⟩]
      have := sx' (by omega)
      obtain ⟨k, hk⟩ := dx
      constructor
      · intro h; exact ⟨k, by omega, by omega⟩
      · rintro ⟨j, h1, h2⟩
        rcases Int.lt_or_le (A * j) (A * k) with h | h
        · have := hmul ⟨j, rfl⟩ ⟨k, rfl⟩ h
          omega
        · omega
    · rw [if_neg (by omega)]
      have := sx hx
      obtain ⟨k, hk⟩ := dx
      constructor
      · intro h; exact ⟨k + 1, by rw [Int.mul_add, Int.mul_one]; omega, by rw [Int.mul_add, Int.mul_one]; omega⟩
      · rintro ⟨j, h1, h2⟩
        have : A * k < A * j := by omega
        have := hmul ⟨k, rfl⟩ ⟨j, rfl⟩ this
        omega

/-- Both directions occur: -16 to 10 is covered by vectors of eight, -13 to -3 is not, nor is 1 to 7. -/
example : Covered 8 (-16) 10 (peel (.signed 32) 8 (-16) 10) ∧ ¬ Covered 8 (-13) (-3) (peel (.signed 32) 8 (-13) (-3)) ∧
    ¬ Covered 8 1 7 (peel (.unsigned 64) 8 1 7) := by
  refine ⟨(C37_iff _ 8 (by decide) _ _ (by decide) (by decide) (by decide)).2 ⟨⟨-2, by decide, by decide⟩, .inl (by decide)⟩, ?_, ?_⟩
  · rw [C37_iff _ 8 (by decide) _ _ (by decide) (by decide) (by decide)]
    rintro ⟨_, h | h⟩ <;> revert h <;> decide
  · rw [C37_iff _ 8 (by decide) _ _ (by decide) (by decide) (by decide)]
    rintro ⟨⟨k, h1, h2⟩, _⟩
    rw [if_neg (by decide)] at h2
    omega

/-- What happens instead in ranges without a multiple of the arity: all indices up to the next multiple are processed, one by one. -/
theorem C37_false_exact (t : CTy) (A : Nat) (x e : Int) (hx : 0 ≤ x) (hxe : x ≤ e) (k : Int) (hk : A * k < x) (hk' : e < A * (k + 1))
    (hfit : e + 2 * A < t.hi) :
    ∃ calls, peel t A x e = some (calls, A * (k + 1)) ∧ visits calls = iota x (A * (k + 1) - x).toNat ∧
      ∀ c ∈ calls, (c.1 = 1 ∨ c.1 = A) ∧ (c.1 = A → (A : Int) ∣ c.2) := by
  have e1 : (A : Int) * (k + 1) = A * k + A := by rw [Int.mul_add, Int.mul_one]
  have hA : 0 < A := by omega
  have hA' : (0 : Int) < A := by omega
  have hlo : t.lo ≤ 0 := by
    cases t with
    | signed w =>
      simp only [CTy.lo]
      have : (0 : Int) < 2 ^ (w - 1) := Int.pow_pos (by decide)
      generalize (2 : Int) ^ (w - 1) = z at *
      omega
    | unsigned w => simp [CTy.lo]
  have hq : ∀ y : Int, A * k ≤ y → y < A * k + A → y % A = y - A * k := by
    intro y h1 h2
    rw [show y = (y - A * k) + A * k by omega, Int.add_mul_emod_self_left, Int.emod_eq_of_lt (by omega) (by omega)]
    omega
  have hk0 : 0 ≤ k := by
    rcases Int.lt_or_le k 0 with h | h
    · have := Int.mul_le_mul_of_nonneg_left (show k + 1 ≤ 0 by omega) (show (0 : Int) ≤ A by omega)
      rw [Int.mul_zero] at this
      omega
    · exact h
  have hAk := Int.mul_nonneg (show (0 : Int) ≤ A by omega) hk0
  have hnext : nextStop t A x = some (A * (k + 1)) := by
    unfold nextStop
    dsimp only
    rw [Int.tmod_eq_emod_of_nonneg hx, hq x (by omega) (by omega)]
    rw [if_pos (by omega), norm_ok (by omega) (by omega)]
    simp only
    rw [show x + A - (x - A * k) = A * (k + 1) by omega]
    exact norm_ok (by omega) (by omega)
  have hlast : lastStop t A e = some (A * k) := by
    unfold lastStop
    rw [Int.tmod_eq_emod_of_nonneg (by omega), hq e (by omega) (by omega), show e - (e - A * k) = A * k by omega]
    exact norm_ok (by omega) (by omega)
  have := peel_run hA hnext hlast (by omega) ⟨_, rfl⟩ ⟨_, rfl⟩ (by omega) (by omega) (by omega) (by omega)
  rwa [show max (max ((A : Int) * (k + 1)) (A * k)) e = A * (k + 1) by omega] at this

example := C37_false_exact (.unsigned 64) 16 33 47 (by decide) (by decide) 2 (by decide) (by decide) (by decide)

end LFA
