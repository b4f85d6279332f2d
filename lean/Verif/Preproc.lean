import Verif.Base

/-
  The preprocessor list macros (preprocessor.hpp, detail/preprocessor.hpp; the branch for compilers
  other than MSVC).

  A list `(a)(b)(c)` is a `List α`, an item being any token sequence `α` with balanced parentheses,
  without top-level commas and without names of these macros. The rows below were
  generated from the header and hold every `#define` of the five numbered families; the names are
  represented by their numeric postfix. Not modelled: macro expansion inside the items.
-/
namespace LFA.PP

/-- detail/preprocessor.hpp:25-74, one row per `#define LIBFLATARRAY_ELEM_i(_) LIBFLATARRAY_ELEM_j`: `(i, j)`. -/
def elemRows : List (Nat × Nat) := [
  (1, 0), (2, 1), (3, 2), (4, 3), (5, 4), (6, 5),
  (7, 6), (8, 7), (9, 8), (10, 9), (11, 10), (12, 11),
  (13, 12), (14, 13), (15, 14), (16, 15), (17, 16), (18, 17),
  (19, 18), (20, 19), (21, 20), (22, 21), (23, 22), (24, 23),
  (25, 24), (26, 25), (27, 26), (28, 27), (29, 28), (30, 29),
  (31, 30), (32, 31), (33, 32), (34, 33), (35, 34), (36, 35),
  (37, 36), (38, 37), (39, 38), (40, 39), (41, 40), (42, 41),
  (43, 42), (44, 43), (45, 44), (46, 45), (47, 46), (48, 47),
  (49, 48), (50, 49)]

/-- detail/preprocessor.hpp:78-128, one row per `#define LIBFLATARRAY_SIZE_i(_) LIBFLATARRAY_SIZE_j`: `(i, j)`. -/
def sizeRows : List (Nat × Nat) := [
  (0, 1), (1, 2), (2, 3), (3, 4), (4, 5), (5, 6),
  (6, 7), (7, 8), (8, 9), (9, 10), (10, 11), (11, 12),
  (12, 13), (13, 14), (14, 15), (15, 16), (16, 17), (17, 18),
  (18, 19), (19, 20), (20, 21), (21, 22), (22, 23), (23, 24),
  (24, 25), (25, 26), (26, 27), (27, 28), (28, 29), (29, 30),
  (30, 31), (31, 32), (32, 33), (33, 34), (34, 35), (35, 36),
  (36, 37), (37, 38), (38, 39), (39, 40), (40, 41), (41, 42),
  (42, 43), (43, 44), (44, 45), (45, 46), (46, 47), (47, 48),
  (48, 49), (49, 50), (50, 51)]

/-- detail/preprocessor.hpp:130-181, one row per `#define LIBFLATARRAY_DEREF_LIBFLATARRAY_SIZE_i v`: `(i, v)`. -/
def derefRows : List (Nat × Nat) := [
  (0, 0), (1, 1), (2, 2), (3, 3), (4, 4), (5, 5),
  (6, 6), (7, 7), (8, 8), (9, 9), (10, 10), (11, 11),
  (12, 12), (13, 13), (14, 14), (15, 15), (16, 16), (17, 17),
  (18, 18), (19, 19), (20, 20), (21, 21), (22, 22), (23, 23),
  (24, 24), (25, 25), (26, 26), (27, 27), (28, 28), (29, 29),
  (30, 30), (31, 31), (32, 32), (33, 33), (34, 34), (35, 35),
  (36, 36), (37, 37), (38, 38), (39, 39), (40, 40), (41, 41),
  (42, 42), (43, 43), (44, 44), (45, 45), (46, 46), (47, 47),
  (48, 48), (49, 49), (50, 50), (51, 51)]

/-- detail/preprocessor.hpp:188-238, one row per `LIBFLATARRAY_FOR_EACH_i`: the preceding
`LIBFLATARRAY_FOR_EACH_j` it expands first (if any), the index it passes, the index it reads. -/
def forEachRows : List (Nat × Option Nat × Nat × Nat) := [
  (0, none, 0, 0), (1, some 0, 1, 1), (2, some 1, 2, 2), (3, some 2, 3, 3), (4, some 3, 4, 4), (5, some 4, 5, 5),
  (6, some 5, 6, 6), (7, some 6, 7, 7), (8, some 7, 8, 8), (9, some 8, 9, 9), (10, some 9, 10, 10), (11, some 10, 11, 11),
  (12, some 11, 12, 12), (13, some 12, 13, 13), (14, some 13, 14, 14), (15, some 14, 15, 15), (16, some 15, 16, 16), (17, some 16, 17, 17),
  (18, some 17, 18, 18), (19, some 18, 19, 19), (20, some 19, 20, 20), (21, some 20, 21, 21), (22, some 21, 22, 22), (23, some 22, 23, 23),
  (24, some 23, 24, 24), (25, some 24, 25, 25), (26, some 25, 26, 26), (27, some 26, 27, 27), (28, some 27, 28, 28), (29, some 28, 29, 29),
  (30, some 29, 30, 30), (31, some 30, 31, 31), (32, some 31, 32, 32), (33, some 32, 33, 33), (34, some 33, 34, 34), (35, some 34, 35, 35),
  (36, some 35, 36, 36), (37, some 36, 37, 37), (38, some 37, 38, 38), (39, some 38, 39, 39), (40, some 39, 40, 40), (41, some 40, 41, 41),
  (42, some 41, 42, 42), (43, some 42, 43, 43), (44, some 43, 44, 44), (45, some 44, 45, 45), (46, some 45, 46, 46), (47, some 46, 47, 47),
  (48, some 47, 48, 48), (49, some 48, 49, 49), (50, some 49, 50, 50)]

/-- detail/preprocessor.hpp:244-344, one row per
`#define LIBFLATARRAY_IF_SHORTER_DEREF_LIBFLATARRAY_IF_SHORTER_i(A, B) …`; `Mk` is written `-k`, and
the Boolean says whether the replacement is `A`. -/
def shorterDerefRows : List (Int × Bool) := [
  ((-50), false), ((-49), false), ((-48), false), ((-47), false), ((-46), false), ((-45), false),
  ((-44), false), ((-43), false), ((-42), false), ((-41), false), ((-40), false), ((-39), false),
  ((-38), false), ((-37), false), ((-36), false), ((-35), false), ((-34), false), ((-33), false),
  ((-32), false), ((-31), false), ((-30), false), ((-29), false), ((-28), false), ((-27), false),
  ((-26), false), ((-25), false), ((-24), false), ((-23), false), ((-22), false), ((-21), false),
  ((-20), false), ((-19), false), ((-18), false), ((-17), false), ((-16), false), ((-15), false),
  ((-14), false), ((-13), false), ((-12), false), ((-11), false), ((-10), false), ((-9), false),
  ((-8), false), ((-7), false), ((-6), false), ((-5), false), ((-4), false), ((-3), false),
  ((-2), false), ((-1), false), (0, false), (1, true), (2, true), (3, true),
  (4, true), (5, true), (6, true), (7, true), (8, true), (9, true),
  (10, true), (11, true), (12, true), (13, true), (14, true), (15, true),
  (16, true), (17, true), (18, true), (19, true), (20, true), (21, true),
  (22, true), (23, true), (24, true), (25, true), (26, true), (27, true),
  (28, true), (29, true), (30, true), (31, true), (32, true), (33, true),
  (34, true), (35, true), (36, true), (37, true), (38, true), (39, true),
  (40, true), (41, true), (42, true), (43, true), (44, true), (45, true),
  (46, true), (47, true), (48, true), (49, true), (50, true)]

/-- detail/preprocessor.hpp:346-446, one row per `#define LIBFLATARRAY_IF_SHORTER_i(_) LIBFLATARRAY_IF_SHORTER_j`. -/
def shorterRows : List (Int × Int) := [
  ((-50), (-50)), ((-49), (-50)), ((-48), (-49)), ((-47), (-48)), ((-46), (-47)), ((-45), (-46)),
  ((-44), (-45)), ((-43), (-44)), ((-42), (-43)), ((-41), (-42)), ((-40), (-41)), ((-39), (-40)),
  ((-38), (-39)), ((-37), (-38)), ((-36), (-37)), ((-35), (-36)), ((-34), (-35)), ((-33), (-34)),
  ((-32), (-33)), ((-31), (-32)), ((-30), (-31)), ((-29), (-30)), ((-28), (-29)), ((-27), (-28)),
  ((-26), (-27)), ((-25), (-26)), ((-24), (-25)), ((-23), (-24)), ((-22), (-23)), ((-21), (-22)),
  ((-20), (-21)), ((-19), (-20)), ((-18), (-19)), ((-17), (-18)), ((-16), (-17)), ((-15), (-16)),
  ((-14), (-15)), ((-13), (-14)), ((-12), (-13)), ((-11), (-12)), ((-10), (-11)), ((-9), (-10)),
  ((-8), (-9)), ((-7), (-8)), ((-6), (-7)), ((-5), (-6)), ((-4), (-5)), ((-3), (-4)),
  ((-2), (-3)), ((-1), (-2)), (0, (-1)), (1, 0), (2, 1), (3, 2),
  (4, 3), (5, 4), (6, 5), (7, 6), (8, 7), (9, 8),
  (10, 9), (11, 10), (12, 11), (13, 12), (14, 13), (15, 14),
  (16, 15), (17, 16), (18, 17), (19, 18), (20, 19), (21, 20),
  (22, 21), (23, 22), (24, 23), (25, 24), (26, 25), (27, 26),
  (28, 27), (29, 28), (30, 29), (31, 30), (32, 31), (33, 32),
  (34, 33), (35, 34), (36, 35), (37, 36), (38, 37), (39, 38),
  (40, 39), (41, 40), (42, 41), (43, 42), (44, 43), (45, 44),
  (46, 45), (47, 46), (48, 47), (49, 48), (50, 49)]

/-- Rescanning of a numbered macro followed by a list (C++ [cpp.rescan]): as long as the current name
is a macro of the family and the next token is `(`, the call is replaced by the next name. A name
which comes out of its own expansion is not expanded again (`hide`). The result is the final name and
the rest of the list. -/
def drive [DecidableEq N] (rows : List (N × N)) : Option N → N → List α → N × List α
  | _, n, [] => (n, [])
  | hide, n, x :: xs =>
    if hide = some n then (n, x :: xs)
    else
      match rows.lookup n with
      | some m => drive rows (some n) m xs
      | none => (n, x :: xs)

/-- preprocessor.hpp:18, detail/preprocessor.hpp:19-21,24: `LIBFLATARRAY_ELEM(i, LIST)`.
`LIBFLATARRAY_ELEM_i LIST` ends in `LIBFLATARRAY_ELEM_0 (x) rest`, which is `x, LIBFLATARRAY_NIL rest`,
and `LIBFLATARRAY_ELEM_III` keeps what is in front of the comma. `none`: does not expand to an item
(no such macro, or the list is used up). -/
def elem (i : Nat) (l : List α) : Option α :=
  if i = 0 ∨ (elemRows.lookup i).isSome then
    match drive elemRows none i l with
    | (0, x :: _) => some x
    | _ => none
  else none

/-- preprocessor.hpp:27, detail/preprocessor.hpp:76-77: `LIBFLATARRAY_SIZE(LIST)`: the final name is
pasted to `LIBFLATARRAY_DEREF_`. `none`: what remains is not a number. -/
def size (l : List α) : Option Nat :=
  match drive sizeRows none 0 l with
  | (n, []) => derefRows.lookup n
  | _ => none

/-- preprocessor.hpp:31,35: `LIBFLATARRAY_DEQUEUE(LIST)`. -/
def dequeue : List α → Option (List α)
  | [] => none
  | _ :: xs => some xs

/-- detail/preprocessor.hpp:188-238: expansion of `LIBFLATARRAY_FOR_EACH_i`: the calls of `MACRO` with
their first and last argument. (`fuel` bounds the nesting; the names are distinct, so nothing is
hidden.) -/
def forEachN (l : List α) : Nat → Nat → Option (List (Nat × α))
  | 0, _ => none
  | fuel + 1, i => do
    let (prev, idx, e) ← forEachRows.lookup i
    let front ← match prev with
      | none => some []
      | some j => forEachN l fuel j
    let x ← elem e l
    pure (front ++ [(idx, x)])

/-- preprocessor.hpp:43, detail/preprocessor.hpp:183-186: `LIBFLATARRAY_FOR_EACH(MACRO, ARG, LIST)`: the
number of the macro is the size of the dequeued list. The result lists the calls `MACRO(index, ARG, item)`. -/
def forEachM (l : List α) : Option (List (Nat × α)) := do
  let s ← dequeue l
  let n ← size s
  forEachN l (n + 1) n

/-- preprocessor.hpp:50, detail/preprocessor.hpp:240-242: `LIBFLATARRAY_IF_SHORTER(LIST, n, A, B)`. -/
def ifShorter (l : List α) (n : Nat) (a b : β) : Option β :=
  if (shorterRows.lookup (n : Int)).isSome then
    match drive shorterRows none (n : Int) l with
    | (k, []) => (shorterDerefRows.lookup k).map fun t => if t then a else b
    | _ => none
  else none

/-! ### Facts about the rows (each a check of the complete table) and the expansions -/

theorem elemRows_get : ∀ n, n < 50 → elemRows.lookup (n + 1) = some n := by decide

theorem elemRows_zero : elemRows.lookup 0 = none := by decide

theorem elemRows_dom (n : Nat) : (elemRows.lookup n).isSome → 1 ≤ n ∧ n ≤ 50 := by
  intro h
  have : n ∈ elemRows.map (·.1) := by
    rw [Option.isSome_iff_exists] at h
    obtain ⟨m, h⟩ := h
    obtain ⟨l₁, l₂, h, -⟩ := List.lookup_eq_some_iff.1 h
    exact List.mem_map.2 ⟨(n, m), by rw [h]; simp, rfl⟩
  revert this
  have : ∀ m ∈ elemRows.map (·.1), 1 ≤ m ∧ m ≤ 50 := by decide
  exact this n

theorem sizeRows_get : ∀ n, n < 51 → sizeRows.lookup n = some (n + 1) := by decide

theorem sizeRows_end : sizeRows.lookup 51 = none := by decide

theorem derefRows_get : ∀ n, n < 52 → derefRows.lookup n = some n := by decide

theorem forEachRows_zero : forEachRows.lookup 0 = some (none, 0, 0) := by decide

theorem forEachRows_get : ∀ n, n < 50 → forEachRows.lookup (n + 1) = some (some n, n + 1, n + 1) := by
  decide

theorem drive_elem (n : Nat) (hn : n ≤ 50) (hide : Option Nat) (hh : ∀ m, hide = some m → n < m) :
    ∀ (l : List α), drive elemRows hide n l = (n - l.length, l.drop n) := by
  induction n generalizing hide with
  | zero =>
    intro l
    cases l with
    | nil => rfl
    | cons x xs =>
      have : hide ≠ some 0 := fun h => absurd (hh _ h) (by omega)
      simp [drive, this, elemRows_zero]
  | succ n ih =>
    intro l
    cases l with
    | nil => rfl
    | cons x xs =>
      have : hide ≠ some (n + 1) := fun h => absurd (hh _ h) (by omega)
      rw [drive, if_neg this, elemRows_get n (by omega)]
      show drive elemRows (some (n + 1)) n xs = _
      rw [ih (by omega) _ (by intro m h; cases h; omega)]
      simp

theorem drive_size (l : List α) : ∀ (n : Nat) (hide : Option Nat), (∀ m, hide = some m → m < n) →
    n + l.length ≤ 51 → drive sizeRows hide n l = (n + l.length, []) := by
  induction l with
  | nil => intros; rfl
  | cons x xs ih =>
    intro n hide hh hl
    have : hide ≠ some n := fun h => absurd (hh _ h) (by omega)
    simp only [List.length_cons] at hl
    rw [drive, if_neg this, sizeRows_get n (by omega)]
    show drive sizeRows (some n) (n + 1) xs = _
    rw [ih _ _ (by intro m h; cases h; omega) (by omega)]
    simp; omega

theorem drive_size_long (l : List α) : ∀ (n : Nat) (hide : Option Nat), (∀ m, hide = some m → m < n) →
    n ≤ 51 → 51 < n + l.length → drive sizeRows hide n l = (51, l.drop (51 - n)) := by
  induction l with
  | nil => intro n _ _ h1 h2; simp at h2; omega
  | cons x xs ih =>
    intro n hide hh h1 hl
    have : hide ≠ some n := fun h => absurd (hh _ h) (by omega)
    simp only [List.length_cons] at hl
    by_cases h51 : n = 51
    · subst h51
      rw [drive, if_neg this, sizeRows_end]; rfl
    · rw [drive, if_neg this, sizeRows_get n (by omega)]
      show drive sizeRows (some n) (n + 1) xs = _
      rw [ih _ _ (by intro m h; cases h; omega) (by omega) (by omega)]
      rw [show 51 - n = (51 - (n + 1)) + 1 by omega, List.drop_succ_cons]

/-- All rows of `IF_SHORTER` count down by one; the last one (`M50`) repeats itself. -/
theorem shorterRows_get : ∀ n : Nat, n < 100 →
    shorterRows.lookup ((50 : Int) - n) = some ((50 : Int) - n - 1) := by decide

theorem shorterRows_end : shorterRows.lookup (-50 : Int) = some (-50) := by decide

theorem shorterDeref_get : ∀ n : Nat, n < 101 →
    shorterDerefRows.lookup ((50 : Int) - n) = some (decide ((0 : Int) < 50 - n)) := by decide

theorem drive_shorter (l : List α) : ∀ (k : Nat) (hide : Option Int),
    (∀ m, hide = some m → m = 50 - (k : Int) + 1) → k + l.length ≤ 100 →
    drive shorterRows hide ((50 : Int) - k) l = (50 - (k : Int) - l.length, []) := by
  induction l with
  | nil => intros; simp [drive]
  | cons x xs ih =>
    intro k hide hh hl
    have : hide ≠ some ((50 : Int) - k) := fun h => by have := hh _ h; omega
    simp only [List.length_cons] at hl
    rw [drive, if_neg this, shorterRows_get k (by omega)]
    show drive shorterRows (some _) (50 - (k : Int) - 1) xs = _
    have := ih (k + 1) (some ((50 : Int) - k)) (by intro m h; cases h; push_cast; omega) (by omega)
    rw [show ((50 : Int) - ((k + 1 : Nat) : Int)) = 50 - (k : Int) - 1 by push_cast; omega] at this
    rw [this]
    simp; omega

end LFA.PP
