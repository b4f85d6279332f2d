import Mathlib.Data.List.Basic

/-
  LIBFLATARRAY_LOOP_PEELER and loop_peeler (loop_peeler.hpp).
-/
namespace LFA.Peel

/-- COUNTER_TYPE: an integer type of (at least) `int`'s rank with the given number of bits. -/
inductive CTy where
  | signed (w : Nat)
  | unsigned (w : Nat)

/-- Number of values of the type is `2 ^ bits`. -/
def CTy.bits : CTy → Nat
  | .signed w => w
  | .unsigned w => w

/-- Smallest value. -/
def CTy.lo : CTy → Int
  | .signed w => -2 ^ (w - 1)
  | .unsigned _ => 0

/-- Largest value plus one. -/
def CTy.hi : CTy → Int
  | .signed w => 2 ^ (w - 1)
  | .unsigned w => 2 ^ w

/-- Result of an arithmetic operation: signed overflow is undefined behaviour (`none`), unsigned arithmetic wraps. -/
def CTy.norm (t : CTy) (i : Int) : Option Int :=
  match t with
  | .signed w => if -2 ^ (w - 1) ≤ i ∧ i < 2 ^ (w - 1) then some i else none
  | .unsigned w => some (i % 2 ^ w)

variable (t : CTy)

/-- FUNCTION resp. LAMBDA, as documented (loop_peeler.hpp:25-26): `for (; x < end; x += ARITY) body(x)`. Yields the calls of the body
    (arity and index) and the final value of the counter. `fuel` bounds the iterations; running out of it is a failure, too. -/
def loop (A : Nat) : Nat → Int → Int → Option (List (Nat × Int) × Int)
  | 0, _, _ => none
  | fuel + 1, x, e =>
    if x < e then
      match t.norm (x + A) with
      | none => none
      | some x' =>
        match loop A fuel x' e with
        | none => none
        | some (calls, x'') => some ((A, x) :: calls, x'')
    else some ([], x)

/-- The fuel suffices for every loop without overflow. -/
def loop' (A : Nat) (x e : Int) : Option (List (Nat × Int) × Int) := loop t A ((e - x).toNat + 1) x e

/-- `next_stop` (loop_peeler.hpp:83-87 and 107-110). The expression is evaluated from left to right: `(X + ARITY) - remainder`. -/
def nextStop (A : Nat) (x : Int) : Option Int :=
  let remainder := x.tmod A
  if remainder ≠ 0 then
    match t.norm (x + A) with
    | none => none
    | some y => t.norm (y - remainder)
  else some x

/-- `last_stop` (loop_peeler.hpp:88-89 and 111). -/
def lastStop (A : Nat) (e : Int) : Option Int := t.norm (e - e.tmod A)

/-- The macro (loop_peeler.hpp:75-94), and the function (loop_peeler.hpp:100-117) if both counter types are the same; see `peelFn` for
    different ones. -/
def peel (A : Nat) (x e : Int) : Option (List (Nat × Int) × Int) :=
  match nextStop t A x, lastStop t A e with
  | some next, some last =>
    match loop' t 1 x next with
    | none => none
    | some (c1, x) =>
      match loop' t A x last with
      | none => none
      | some (c2, x) =>
        match loop' t 1 x e with
        | none => none
        | some (c3, x) => some (c1 ++ c2 ++ c3, x)
  | _, _ => none

/-- `x, x + 1, ..., x + n - 1`. -/
def iota (x : Int) (n : Nat) : List Int := (List.range n).map fun (i : Nat) => x + i

/-- The indices which calls of the body process: an instance with arity `a` processes `a` of them. -/
def visits (calls : List (Nat × Int)) : List Int := calls.flatMap fun c => iota c.2 c.1

/-! ### Proofs -/
variable {t}

theorem iota_add (x : Int) (m n : Nat) : iota x (m + n) = iota x m ++ iota (x + m) n := by
  unfold iota
  rw [List.range_add, List.map_append, List.map_map]
  congr 1
  apply List.map_congr_left
  intro i _
  simp only [Function.comp]
  omega

theorem visits_append (a b : List (Nat × Int)) : visits (a ++ b) = visits a ++ visits b := by
  unfold visits; rw [List.flatMap_append]

theorem norm_ok {i : Int} (h1 : t.lo ≤ i) (h2 : i < t.hi) : t.norm i = some i := by
  cases t with
  | signed w =>
    simp only [CTy.lo, CTy.hi] at h1 h2
    simp only [CTy.norm]
    rw [if_pos ⟨h1, h2⟩]
  | unsigned w =>
    simp only [CTy.lo, CTy.hi] at h1 h2
    simp only [CTy.norm, Option.some.injEq]
    exact Int.emod_eq_of_lt h1 h2

/-- A loop whose length is a multiple of the arity. -/
theorem loop_ok (A : Nat) (hA : 0 < A) (n : Nat) : ∀ (fuel : Nat) (x : Int), n < fuel → t.lo ≤ x → x + (n * A : Nat) < t.hi →
    loop t A fuel x (x + (n * A : Nat)) = some ((List.range n).map fun (i : Nat) => (A, x + (i * A : Nat)), x + (n * A : Nat)) := by
  induction n with
  | zero =>
    intro fuel x hf _ _
    obtain ⟨fuel, rfl⟩ : ∃ f, fuel = f + 1 := ⟨fuel - 1, by omega⟩
    simp [loop]
  | succ n ih =>
    intro fuel x hf h1 h2
    obtain ⟨fuel, rfl⟩ : ∃ f, fuel = f + 1 := ⟨fuel - 1, by omega⟩
    have hs : (n + 1) * A = n * A + A := Nat.succ_mul n A
    have hs' : x + ((n + 1) * A : Nat) = (x + A) + (n * A : Nat) := by rw [hs]; push_cast; omega
    simp only [loop]
    rw [if_pos (by omega), norm_ok (by omega) (by omega)]
    simp only
    rw [hs', ih fuel (x + A) (by omega) (by omega) (by omega)]
    simp only [Option.some.injEq, Prod.mk.injEq, and_true]
    rw [List.range_succ_eq_map, List.map_cons, List.map_map]
    congr 1
    · simp
    · apply List.map_congr_left
      intro i _
      simp only [Function.comp, Prod.mk.injEq, true_and]
      rw [Nat.succ_mul]; push_cast; omega

theorem visits_loop (A : Nat) (n : Nat) (x : Int) :
    visits ((List.range n).map fun (i : Nat) => (A, x + (i * A : Nat))) = iota x (n * A) := by
  induction n with
  | zero => simp [visits, iota]
  | succ n ih =>
    rw [List.range_succ, List.map_append, visits_append, ih, Nat.succ_mul, iota_add]
    simp [visits]

end LFA.Peel
