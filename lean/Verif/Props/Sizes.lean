import Verif.Sizes

/-
  C06, C07: selection of sizes.
-/
namespace LFA.Props
open LFA

/-- Specification: `s` is the smallest element of `l` that is at least `dim`. -/
def IsSmallestFit (l : List Nat) (dim s : Nat) : Prop := s ∈ l ∧ dim ≤ s ∧ ∀ t ∈ l, dim ≤ t → s ≤ t

/-- Size lists are given in ascending order. -/
def Ascending (l : List Nat) : Prop := l.Pairwise (· < ·)

instance (l : List Nat) : Decidable (Ascending l) := inferInstanceAs (Decidable (l.Pairwise (· < ·)))

theorem firstFit_some_iff {l : List Nat} (hl : Ascending l) (dim s : Nat) :
    firstFit dim l = some s ↔ IsSmallestFit l dim s := by
  induction l with
  | nil => simp [firstFit, IsSmallestFit]
  | cons a l ih =>
    have h1 : ∀ t ∈ l, a < t := (List.pairwise_cons.1 hl).1
    have h2 : Ascending l := (List.pairwise_cons.1 hl).2
    unfold firstFit
    by_cases h : dim ≤ a
    · rw [if_pos h]
      constructor
      · rintro ⟨⟩
        refine ⟨by simp, h, ?_⟩
        intro t ht _
        rcases List.mem_cons.1 ht with rfl | ht
        · exact Nat.le_refl _
        · exact Nat.le_of_lt (h1 t ht)
      · rintro ⟨hs, hd, hmin⟩
        have := hmin a (by simp) h
        rcases List.mem_cons.1 hs with rfl | hs
        · rfl
        · have := h1 s hs; omega
    · rw [if_neg h, ih h2]
      constructor
      · rintro ⟨hs, hd, hmin⟩
        refine ⟨by simp [hs], hd, ?_⟩
        intro t ht hdt
        rcases List.mem_cons.1 ht with rfl | ht
        · omega
        · exact hmin t ht hdt
      · rintro ⟨hs, hd, hmin⟩
        rcases List.mem_cons.1 hs with rfl | hs
        · omega
        · exact ⟨hs, hd, fun t ht hdt => hmin t (by simp [ht]) hdt⟩

theorem firstFit_none_iff (l : List Nat) (dim : Nat) : firstFit dim l = none ↔ ∀ t ∈ l, t < dim := by
  induction l with
  | nil => simp [firstFit]
  | cons a l ih =>
    unfold firstFit
    by_cases h : dim ≤ a
    · simp only [if_pos h]
      constructor
      · intro h; cases h
      · intro h'; have := h' a (by simp); omega
    · rw [if_neg h, ih]
      constructor
      · intro h' t ht
        rcases List.mem_cons.1 ht with rfl | ht
        · omega
        · exact h' t ht
      · intro h' t ht; exact h' t (by simp [ht])

/-- C06, custom sizes: per axis the smallest listed size is used; otherwise out_of_range. -/
theorem C06_custom (xs ys zs : List Nat) (hx : Ascending xs) (hy : Ascending ys) (hz : Ascending zs) (d e : Ext) :
    (selectSizes (.custom xs ys zs) d = .ok e ↔
      IsSmallestFit xs d.x e.x ∧ IsSmallestFit ys d.y e.y ∧ IsSmallestFit zs d.z e.z) ∧
    ((∃ msg, selectSizes (.custom xs ys zs) d = .error (.outOfRange msg)) ↔
      (∀ s ∈ xs, s < d.x) ∨ (∀ s ∈ ys, s < d.y) ∨ (∀ s ∈ zs, s < d.z)) := by
  simp only [selectSizes, selectCustom]
  rw [← firstFit_some_iff hx, ← firstFit_some_iff hy, ← firstFit_some_iff hz, ← firstFit_none_iff, ← firstFit_none_iff,
    ← firstFit_none_iff]
  cases firstFit d.x xs with
  | none => simp
  | some a =>
    cases firstFit d.y ys with
    | none => simp
    | some b =>
      cases firstFit d.z zs with
      | none => simp
      | some c => cases e; simp

example := C06_custom [8, 16, 32] [4] [1, 2] (by decide) (by decide) (by decide) ⟨9, 4, 1⟩ ⟨16, 4, 1⟩

/-- C06, 1D uniform sizes: y and z must be 1. -/
theorem C06_uniform1 (l : List Nat) (hl : Ascending l) (d e : Ext) :
    (selectSizes (.uniform1 l) d = .ok e ↔
      d.y = 1 ∧ d.z = 1 ∧ e.y = 1 ∧ e.z = 1 ∧ IsSmallestFit l d.x e.x) ∧
    ((∃ msg, selectSizes (.uniform1 l) d = .error (.outOfRange msg)) ↔ d.y ≠ 1 ∨ d.z ≠ 1 ∨ ∀ s ∈ l, s < d.x) := by
  simp only [selectSizes, selectUniform1]
  rw [← firstFit_some_iff hl, ← firstFit_none_iff]
  by_cases hy : d.y = 1
  · by_cases hz : d.z = 1
    · cases firstFit d.x l with
      | none => simp [hy, hz]
      | some a => cases e; simp [hy, hz]; omega
    · simp [hy, hz]
  · simp [hy]

example := C06_uniform1 [8, 16, 32] (by decide) ⟨9, 1, 1⟩ ⟨16, 1, 1⟩

/-- C06, 2D uniform sizes: one size for x and y, z must be 1. -/
theorem C06_uniform2 (l : List Nat) (hl : Ascending l) (d e : Ext) :
    (selectSizes (.uniform2 l) d = .ok e ↔
      d.z = 1 ∧ e.y = e.x ∧ e.z = 1 ∧ IsSmallestFit l (max d.x d.y) e.x) ∧
    ((∃ msg, selectSizes (.uniform2 l) d = .error (.outOfRange msg)) ↔ d.z ≠ 1 ∨ ∀ s ∈ l, s < max d.x d.y) := by
  simp only [selectSizes, selectUniform2]
  rw [← firstFit_some_iff hl, ← firstFit_none_iff]
  by_cases hz : d.z = 1
  · cases firstFit (max d.x d.y) l with
    | none => simp [hz]
    | some a =>
      cases e
      simp [hz]
      omega
  · simp [hz]

example := C06_uniform2 [8, 16, 32] (by decide) ⟨9, 20, 1⟩ ⟨32, 32, 1⟩

/-- C06, 3D uniform sizes: one size for all axes. -/
theorem C06_uniform3 (l : List Nat) (hl : Ascending l) (d e : Ext) :
    (selectSizes (.uniform3 l) d = .ok e ↔ e.y = e.x ∧ e.z = e.x ∧ IsSmallestFit l (max d.x (max d.y d.z)) e.x) ∧
    ((∃ msg, selectSizes (.uniform3 l) d = .error (.outOfRange msg)) ↔ ∀ s ∈ l, s < max d.x (max d.y d.z)) := by
  simp only [selectSizes, selectUniform3]
  rw [← firstFit_some_iff hl, ← firstFit_none_iff]
  cases firstFit (max d.x (max d.y d.z)) l with
  | none => simp
  | some a =>
    cases e
    simp
    omega

example := C06_uniform3 [8, 16, 32] (by decide) ⟨9, 4, 12⟩ ⟨16, 16, 16⟩

/-- C06, 1D uniform sizes, the overload for constant data (macros.hpp:1090-1113) chooses the same sizes whenever it matters. -/
theorem C06_uniform1_const (l : List Nat) (d : Ext) (hx : 1 ≤ d.x) : selectUniform1Const l d = selectUniform1 l d := by
  unfold selectUniform1Const selectUniform1
  by_cases hz : d.z = 1
  · have : max d.x d.z = d.x := by omega
    rw [this]
  · simp [hz]

example := C06_uniform1_const [8, 16, 32] ⟨9, 1, 1⟩ (by decide)

/-- C06: the result is never smaller than the request, for any size list (also unsorted ones). -/
theorem C06_never_clips (tr : Traits) (d e : Ext) (h : selectSizes tr d = .ok e) : d.x ≤ e.x ∧ d.y ≤ e.y ∧ d.z ≤ e.z :=
  selectSizes_fits h

example := C06_never_clips (.custom [8, 16, 32] [4] [1, 2]) ⟨9, 4, 1⟩ ⟨16, 4, 1⟩ rfl

theorem asc1 : Ascending sizes1D := by decide
theorem asc2 : Ascending sizes2D := by decide
theorem asc3 : Ascending sizes3D := by decide

theorem fits_iff {l : List Nat} {M : Nat} (hM : M ∈ l) (hmax : ∀ t ∈ l, t ≤ M) (dim : Nat) :
    (∃ s, firstFit dim l = some s) ↔ dim ≤ M := by
  constructor
  · rintro ⟨s, hs⟩
    by_contra h
    have : firstFit dim l = none := (firstFit_none_iff l dim).2 (fun t ht => by have := hmax t ht; omega)
    rw [this] at hs; cases hs
  · intro h
    cases hf : firstFit dim l with
    | some s => exact ⟨s, rfl⟩
    | none => have := (firstFit_none_iff l dim).1 hf M hM; omega

theorem firstFit_mem {l : List Nat} {dim s : Nat} (h : firstFit dim l = some s) : s ∈ l := by
  induction l with
  | nil => cases h
  | cons a l ih =>
    unfold firstFit at h
    split at h
    · cases h; simp
    · simp [ih h]

/-- C07, part 1: which dimensions are accepted with default traits. -/
theorem C07_accepted (d : Ext) :
    (∃ e, selectSizes .dflt d = .ok e) ↔
      (d.y = 1 ∧ d.z = 1 ∧ d.x ≤ 1073741856) ∨ (d.y > 1 ∧ d.z = 1 ∧ max d.x d.y ≤ 32800) ∨
      (d.y > 1 ∧ d.z > 1 ∧ max d.x (max d.y d.z) ≤ 1032) := by
  have f1 := fits_iff (l := sizes1D) (M := 1073741856) (by decide) (by decide) d.x
  have f2 := fits_iff (l := sizes2D) (M := 32800) (by decide) (by decide) (max d.x d.y)
  have f3 := fits_iff (l := sizes3D) (M := 1032) (by decide) (by decide) (max d.x (max d.y d.z))
  simp only [selectSizes]
  by_cases hy : d.y > 1
  · by_cases hz : d.z > 1
    · simp only [hy, hz, and_self, if_true, selectUniform3]
      have : ¬ d.y = 1 := by omega
      have : ¬ d.z = 1 := by omega
      rw [← f3]
      cases firstFit (max d.x (max d.y d.z)) sizes3D <;> simp [*]
    · simp only [hy, hz, and_false, if_false, if_true, selectUniform2]
      have : ¬ d.y = 1 := by omega
      rw [← f2]
      by_cases hz1 : d.z = 1
      · cases firstFit (max d.x d.y) sizes2D <;> simp [*]
      · simp [*]
  · simp only [hy, false_and, if_false, selectUniform1]
    rw [← f1]
    by_cases hy1 : d.y = 1
    · by_cases hz1 : d.z = 1
      · cases firstFit d.x sizes1D <;> simp [*]
      · simp [*]
    · simp [*]

example := (C07_accepted ⟨1000, 30, 1⟩).2 (by decide)

/-- C07, part 2: everything else is out_of_range. -/
theorem C07_rejected (d : Ext) (h : ¬ ∃ e, selectSizes .dflt d = .ok e) :
    ∃ msg, selectSizes .dflt d = .error (.outOfRange msg) := by
  cases hs : selectSizes .dflt d with
  | ok e => exact absurd ⟨e, hs⟩ h
  | error x =>
    simp only [selectSizes] at hs
    split at hs
    · simp only [selectUniform3] at hs
      split at hs
      · cases hs; exact ⟨_, rfl⟩
      · cases hs
    · split at hs
      · simp only [selectUniform2] at hs
        split at hs
        · cases hs; exact ⟨_, rfl⟩
        · split at hs
          · cases hs; exact ⟨_, rfl⟩
          · cases hs
      · simp only [selectUniform1] at hs
        split at hs
        · cases hs; exact ⟨_, rfl⟩
        · split at hs
          · cases hs; exact ⟨_, rfl⟩
          · split at hs
            · cases hs; exact ⟨_, rfl⟩
            · cases hs

example := C07_rejected ⟨5, 1, 5⟩ (by rw [C07_accepted]; decide)

/-- C07, part 3: the extents are multiples of 8 along the axes used (and of 32 in x for 1D and 2D), and 1 along the others. -/
theorem C07_multiples (d e : Ext) (h : selectSizes .dflt d = .ok e) :
    8 ∣ e.x ∧ (d.z = 1 → 32 ∣ e.x) ∧ (if d.y > 1 then e.y = e.x else e.y = 1) ∧
    (if d.y > 1 ∧ d.z > 1 then e.z = e.x else e.z = 1) := by
  have m1 : ∀ s ∈ sizes1D, 8 ∣ s ∧ 32 ∣ s := by decide
  have m2 : ∀ s ∈ sizes2D, 8 ∣ s ∧ 32 ∣ s := by decide
  have m3 : ∀ s ∈ sizes3D, 8 ∣ s := by decide
  simp only [selectSizes] at h
  by_cases hy : d.y > 1
  · by_cases hz : d.z > 1
    · simp only [hy, hz, and_self, if_true, selectUniform3] at h
      cases hf : firstFit (max d.x (max d.y d.z)) sizes3D with
      | none => rw [hf] at h; cases h
      | some s =>
        rw [hf] at h; cases h
        simp only [hy, hz, and_self, if_true, and_true]
        exact ⟨m3 s (firstFit_mem hf), fun h => by omega⟩
    · simp only [hy, hz, and_false, if_false, if_true, selectUniform2] at h
      by_cases hz1 : d.z = 1
      · simp only [hz1, ne_eq, not_true_eq_false, if_false] at h
        cases hf : firstFit (max d.x d.y) sizes2D with
        | none => rw [hf] at h; cases h
        | some s =>
          rw [hf] at h; cases h
          simp only [hy, hz, and_false, if_false, if_true, and_true]
          exact ⟨(m2 s (firstFit_mem hf)).1, fun _ => (m2 s (firstFit_mem hf)).2⟩
      · simp [hz1] at h
  · simp only [hy, false_and, if_false, selectUniform1] at h
    by_cases hy1 : d.y = 1
    · by_cases hz1 : d.z = 1
      · simp only [hy1, hz1, ne_eq, not_true_eq_false, if_false] at h
        cases hf : firstFit d.x sizes1D with
        | none => rw [hf] at h; cases h
        | some s =>
          rw [hf] at h; cases h
          simp only [hy, false_and, if_false, and_true]
          exact ⟨(m1 s (firstFit_mem hf)).1, fun _ => (m1 s (firstFit_mem hf)).2⟩
      · simp [hy1, hz1] at h
    · simp [hy1] at h

example := C07_multiples ⟨10, 20, 30⟩ ⟨32, 32, 32⟩ rfl

/-! ### Concrete instances -/
example : selectSizes (.custom [8, 16, 32] [4] [1, 2]) ⟨9, 4, 1⟩ = .ok ⟨16, 4, 1⟩ := rfl
example : Ascending [8, 16, 32] := by decide
example : selectSizes .dflt ⟨10, 20, 30⟩ = .ok ⟨32, 32, 32⟩ := rfl
example : selectSizes .dflt ⟨1000000, 1, 1⟩ = .ok ⟨1048608, 1, 1⟩ := rfl
example : selectSizes .dflt ⟨1033, 2, 2⟩ = .error (.outOfRange "max grid dimension too large") := rfl
example : selectSizes .dflt ⟨5, 1, 5⟩ = .error (.outOfRange "expected 1D grid, but z != 1") := rfl

end LFA.Props
