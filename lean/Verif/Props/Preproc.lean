import Verif.Preproc

/-
  C42: the preprocessor list macros implement the list operations.
-/
namespace LFA.PP

variable {α β : Type}

/-- C42, `LIBFLATARRAY_SIZE`: the length, for every list of at most 51 items. -/
theorem C42_size (l : List α) (h : l.length ≤ 51) : size l = some l.length := by
  rw [size, drive_size l 0 none (by intro m h; cases h) (by omega)]
  simp only [Nat.zero_add]
  exact derefRows_get _ (by omega)

/-- C42: 51 is the exact limit: longer lists do not expand to a number. -/
theorem C42_size_limit (l : List α) (h : 51 < l.length) : size l = none := by
  rw [size, drive_size_long l 0 none (by intro m h; cases h) (by omega) (by omega)]
  have : l.drop (51 - 0) ≠ [] := by
    intro e; have := congrArg List.length e; simp at this; omega
  match hd : l.drop (51 - 0), this with
  | x :: xs, _ => rfl

example := C42_size_limit (List.range 60) (by decide)

/-- C42, `LIBFLATARRAY_ELEM`: the item at the index, for every list (of any length) and every index
up to 50. -/
theorem C42_elem (i : Nat) (hi : i ≤ 50) (l : List α) (h : i < l.length) : elem i l = some l[i] := by
  have hc : i = 0 ∨ (elemRows.lookup i).isSome := by
    cases i with
    | zero => exact .inl rfl
    | succ n => right; rw [elemRows_get n (by omega)]; rfl
  rw [elem, if_pos hc, drive_elem i hi none (by intro m h; cases h)]
  rw [List.drop_eq_getElem_cons h, show i - l.length = 0 by omega]
  rfl

/-- C42, `LIBFLATARRAY_ELEM` never yields another item: without an item at the index, or beyond index
50, there is no expansion to an item. -/
theorem C42_elem_none (i : Nat) (l : List α) (h : l.length ≤ i ∨ 50 < i) : elem i l = none := by
  rw [elem]
  split
  · rename_i hc
    have hi : i ≤ 50 := by
      rcases hc with rfl | hc
      · omega
      · exact (elemRows_dom i hc).2
    rw [drive_elem i hi none (by intro m h; cases h), List.drop_eq_nil_of_le (by omega)]
    cases i - l.length <;> rfl
  · rfl

example := C42_elem_none 7 ["a", "b"] (.inl (by decide))

theorem forEachN_ok (l : List α) : ∀ (n fuel : Nat), n ≤ 50 → n < fuel → n < l.length →
    forEachN l fuel n = some ((List.range (n + 1)).zip (l.take (n + 1))) := by
  intro n
  induction n with
  | zero =>
    intro fuel _ hf hl
    match fuel, hf with
    | f + 1, _ =>
      rw [forEachN, forEachRows_zero]
      show (do let x ← elem 0 l; pure ([] ++ [(0, x)])) = _
      rw [C42_elem 0 (by omega) l hl]
      match l, hl with
      | x :: xs, _ => rfl
  | succ n ih =>
    intro fuel hn hf hl
    match fuel, hf with
    | f + 1, hf =>
      rw [forEachN, forEachRows_get n (by omega)]
      show (do
        let front ← forEachN l f n
        let x ← elem (n + 1) l
        pure (front ++ [(n + 1, x)])) = _
      rw [ih f (by omega) (by omega) (by omega), C42_elem (n + 1) (by omega) l hl]
      show some _ = some _
      rw [List.range_succ (n := n + 1), List.take_succ_eq_append_getElem hl, List.zip_append]
      · rfl
      · simp; omega

/-- C42, `LIBFLATARRAY_FOR_EACH`: the macro is called once per item, in order, with the item's index,
for every list of 1 to 51 items. -/
theorem C42_forEach (l : List α) (h0 : l ≠ []) (h : l.length ≤ 51) :
    forEachM l = some ((List.range l.length).zip l) := by
  match l, h0 with
  | x :: xs, _ =>
    simp only [List.length_cons] at h
    show (do
      let n ← size xs
      forEachN (x :: xs) (n + 1) n) = _
    rw [C42_size xs (by omega)]
    show forEachN (x :: xs) (xs.length + 1) xs.length = _
    rw [forEachN_ok _ _ _ (by omega) (by omega) (by simp)]
    simp

/-- C42 does not extend to the empty list: `LIBFLATARRAY_FOR_EACH(MACRO, ARG, )` does not expand to
zero calls (see "Will fail for empty lists", preprocessor.hpp:34). -/
theorem C42_forEach_empty : forEachM ([] : List α) = none := rfl

/-- C42, `LIBFLATARRAY_IF_SHORTER`: compares the length, for every limit up to 50 and every list with
at most 50 items more than the limit (in particular for all lists of at most 50 items). -/
theorem C42_ifShorter (l : List α) (n : Nat) (hn : n ≤ 50) (h : l.length ≤ n + 50) (a b : β) :
    ifShorter l n a b = some (if l.length < n then a else b) := by
  have e : (n : Int) = 50 - ((50 - n : Nat) : Int) := by omega
  have hc : (shorterRows.lookup (n : Int)).isSome := by
    rw [e, shorterRows_get _ (by omega)]; rfl
  rw [ifShorter, if_pos hc, e, drive_shorter l _ none (by intro m h; cases h) (by omega)]
  show (shorterDerefRows.lookup _).map _ = _
  have e2 : (50 : Int) - ((50 - n : Nat) : Int) - l.length = 50 - ((50 - n + l.length : Nat) : Int) := by
    omega
  rw [e2, shorterDeref_get _ (by omega)]
  have : ((0 : Int) < 50 - ((50 - n + l.length : Nat) : Int)) ↔ l.length < n := by omega
  simp only [Option.map_some, decide_eq_true_eq, this]

/-- C42 for `LIBFLATARRAY_IF_SHORTER` with limit 0 and 51 items: still the second alternative. -/
theorem C42_ifShorter_zero (l : List α) (h : l.length = 51) (a b : β) : ifShorter l 0 a b = some b := by
  obtain ⟨x, l', rfl⟩ : ∃ x l', l = l' ++ [x] := by
    rcases List.eq_nil_or_concat l with rfl | ⟨l', x, rfl⟩
    · simp at h
    · exact ⟨x, l', by simp⟩
  simp at h
  have key : ∀ (l' : List α) (k : Nat) (hide : Option Int),
      (∀ m, hide = some m → m = 50 - (k : Int) + 1) → k + l'.length = 100 →
      drive shorterRows hide ((50 : Int) - k) (l' ++ [x]) = (-50, []) := by
    intro l'
    induction l' with
    | nil =>
      intro k hide hh hk
      simp at hk
      subst hk
      have : hide ≠ some ((50 : Int) - (100 : Nat)) := fun h => by have := hh _ h; omega
      rw [List.nil_append, drive, if_neg this]
      rw [show ((50 : Int) - (100 : Nat)) = -50 by decide, shorterRows_end]
      rfl
    | cons y ys ih =>
      intro k hide hh hk
      simp only [List.length_cons] at hk
      have : hide ≠ some ((50 : Int) - k) := fun h => by have := hh _ h; omega
      rw [List.cons_append, drive, if_neg this, shorterRows_get k (by omega)]
      show drive shorterRows (some _) (50 - (k : Int) - 1) _ = _
      have := ih (k + 1) (some ((50 : Int) - k)) (by intro m h; cases h; push_cast; omega) (by omega)
      rw [show ((50 : Int) - ((k + 1 : Nat) : Int)) = 50 - (k : Int) - 1 by push_cast; omega] at this
      exact this
  have := key l' 50 none (by intro m h; cases h) (by omega)
  rw [show ((50 : Int) - (50 : Nat)) = ((0 : Nat) : Int) by decide] at this
  rw [ifShorter, if_pos (by decide), this]
  rfl

example := C42_ifShorter_zero (List.range 51) (by decide) 'x' 'y'

/-- Non-trivial instance: five items. -/
example : size ["a", "b", "c", "d", "e"] = some 5 ∧ elem 3 ["a", "b", "c", "d", "e"] = some "d"
    ∧ forEachM ["a", "b", "c"] = some [(0, "a"), (1, "b"), (2, "c")]
    ∧ ifShorter ["a", "b"] 3 'x' 'y' = some 'x' ∧ ifShorter ["a", "b"] 2 'x' 'y' = some 'y' := by
  refine ⟨C42_size _ (by simp), C42_elem 3 (by omega) _ (by simp), ?_, ?_, ?_⟩
  · exact C42_forEach _ (by simp) (by simp)
  · exact C42_ifShorter _ 3 (by omega) (by simp) _ _
  · exact C42_ifShorter _ 2 (by omega) (by simp) _ _

end LFA.PP
