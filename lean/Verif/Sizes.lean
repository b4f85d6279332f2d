import Verif.Accessor

/-
  Selection of the template instantiation (padded extents) from the runtime dimensions
  (macros.hpp:948-1201, api_traits.hpp:55-257).
-/
namespace LFA

/-- How a registered struct declares its grid sizes: nothing (`dflt`, api_traits.hpp:137-218) or a
    `LIBFLATARRAY_CUSTOM_SIZES*` macro in its `API` class (macros.hpp:948-1201). -/
inductive Traits where
  | dflt
  | custom (xs ys zs : List Nat)
  | uniform1 (sizes : List Nat)
  | uniform2 (sizes : List Nat)
  | uniform3 (sizes : List Nat)

/-- The `if (dim <= SIZE) { …; return; }` cascade produced by `LIBFLATARRAY_FOR_EACH(LIBFLATARRAY_CASE_DIM_*, …)`
    (detail/macros.hpp:316-360): the first listed size that is large enough. -/
def firstFit (dim : Nat) : List Nat → Option Nat
  | [] => none
  | s :: ss => if dim ≤ s then some s else firstFit dim ss

/-- `bind_size_x`, `bind_size_y`, `bind_size_z` (macros.hpp:973-1061). -/
def selectCustom (xs ys zs : List Nat) (d : Ext) : Except Exc Ext :=
  match firstFit d.x xs with
  | none => .error (.outOfRange "grid dimension X too large")
  | some sx =>
    match firstFit d.y ys with
    | none => .error (.outOfRange "grid dimension Y too large")
    | some sy =>
      match firstFit d.z zs with
      | none => .error (.outOfRange "grid dimension Z too large")
      | some sz => .ok ⟨sx, sy, sz⟩

/-- `select_size(char*, …)` of `LIBFLATARRAY_CUSTOM_SIZES_1D_UNIFORM` (macros.hpp:1066-1088, detail/macros.hpp:354-360). -/
def selectUniform1 (sizes : List Nat) (d : Ext) : Except Exc Ext :=
  if d.y ≠ 1 then .error (.outOfRange "expected 1D grid, but y != 1")
  else if d.z ≠ 1 then .error (.outOfRange "expected 1D grid, but z != 1")
  else match firstFit d.x sizes with
    | none => .error (.outOfRange "max grid dimension too large")
    | some s => .ok ⟨s, 1, 1⟩

/-- `select_size(const char*, …)` of `LIBFLATARRAY_CUSTOM_SIZES_1D_UNIFORM` (macros.hpp:1090-1113): uses
    `max(dim_x, dim_z)`. soa_grid itself always passes a `char*` and hence uses `selectUniform1`. -/
def selectUniform1Const (sizes : List Nat) (d : Ext) : Except Exc Ext :=
  if d.y ≠ 1 then .error (.outOfRange "expected 1D grid, but y != 1")
  else if d.z ≠ 1 then .error (.outOfRange "expected 1D grid, but z != 1")
  else match firstFit (max d.x d.z) sizes with
    | none => .error (.outOfRange "max grid dimension too large")
    | some s => .ok ⟨s, 1, 1⟩

/-- `LIBFLATARRAY_CUSTOM_SIZES_2D_UNIFORM` (macros.hpp:1115-1160, detail/macros.hpp:346-352). -/
def selectUniform2 (sizes : List Nat) (d : Ext) : Except Exc Ext :=
  if d.z ≠ 1 then .error (.outOfRange "expected 2D grid, but z != 1")
  else match firstFit (max d.x d.y) sizes with
    | none => .error (.outOfRange "max grid dimension too large")
    | some s => .ok ⟨s, s, 1⟩

/-- `LIBFLATARRAY_CUSTOM_SIZES_3D_UNIFORM` (macros.hpp:1162-1201, detail/macros.hpp:338-344). -/
def selectUniform3 (sizes : List Nat) (d : Ext) : Except Exc Ext :=
  match firstFit (max d.x (max d.y d.z)) sizes with
  | none => .error (.outOfRange "max grid dimension too large")
  | some s => .ok ⟨s, s, s⟩

/-- `has_default_1d_sizes` (api_traits.hpp:67-72). -/
def sizes1D : List Nat :=
  [32, 64, 128, 192, 256, 512, 544, 1056, 2080, 4128, 8224, 16416, 32800, 65568, 131104, 262176, 524320, 1048608,
   2097184, 4194336, 8388640, 16777248, 33554464, 67108896, 134217760, 268435488, 536870944, 1073741856]

/-- `has_default_2d_sizes_uniform` (api_traits.hpp:91-96), also both axes of `has_default_2d_sizes` (78-85). -/
def sizes2D : List Nat := [32, 64, 128, 192, 256, 512, 544, 1056, 2080, 4128, 8224, 16416, 32800]

/-- `has_default_3d_sizes_uniform` (api_traits.hpp:120-125), also all axes of `has_default_3d_sizes` (107-114). -/
def sizes3D : List Nat := [32, 64, 128, 136, 192, 200, 256, 264, 512, 520, 1032]

/-- `select_sizes<CELL>()(data, functor, dim_x, dim_y, dim_z)` (api_traits.hpp:137-257): the extents with which the functor
    gets called, or the exception. -/
def selectSizes (tr : Traits) (d : Ext) : Except Exc Ext :=
  match tr with
  | .dflt =>
    if d.y > 1 ∧ d.z > 1 then selectUniform3 sizes3D d
    else if d.y > 1 then selectUniform2 sizes2D d
    else selectUniform1 sizes1D d
  | .custom xs ys zs => selectCustom xs ys zs d
  | .uniform1 s => selectUniform1 s d
  | .uniform2 s => selectUniform2 s d
  | .uniform3 s => selectUniform3 s d

/-! ### Lemmas -/

theorem firstFit_le {dim : Nat} {l : List Nat} {s : Nat} (h : firstFit dim l = some s) : dim ≤ s := by
  induction l with
  | nil => cases h
  | cons a l ih =>
    simp only [firstFit] at h
    split at h
    · cases h; assumption
    · exact ih h

/-- `d` fits in `e`. -/
def Ext.Fits (d e : Ext) : Prop := d.x ≤ e.x ∧ d.y ≤ e.y ∧ d.z ≤ e.z

theorem selectCustom_fits {xs ys zs d e} (h : selectCustom xs ys zs d = .ok e) : d.Fits e := by
  unfold selectCustom at h
  cases h1 : firstFit d.x xs with
  | none => simp [h1] at h
  | some sx =>
    cases h2 : firstFit d.y ys with
    | none => simp [h1, h2] at h
    | some sy =>
      cases h3 : firstFit d.z zs with
      | none => simp [h1, h2, h3] at h
      | some sz =>
        simp only [h1, h2, h3] at h
        cases h
        exact ⟨firstFit_le h1, firstFit_le h2, firstFit_le h3⟩

theorem selectUniform1_fits {s d e} (h : selectUniform1 s d = .ok e) : d.Fits e := by
  unfold selectUniform1 at h
  by_cases hy : d.y = 1
  · by_cases hz : d.z = 1
    · cases h1 : firstFit d.x s with
      | none => simp [hy, hz, h1] at h
      | some sx =>
        simp [hy, hz, h1] at h
        cases h
        exact ⟨firstFit_le h1, by simp [hy], by simp [hz]⟩
    · simp [hy, hz] at h
  · simp [hy] at h

theorem selectUniform2_fits {s d e} (h : selectUniform2 s d = .ok e) : d.Fits e := by
  unfold selectUniform2 at h
  by_cases hz : d.z = 1
  · cases h1 : firstFit (max d.x d.y) s with
    | none => simp [hz, h1] at h
    | some sx =>
      simp [hz, h1] at h
      cases h
      have := firstFit_le h1
      exact ⟨by dsimp; omega, by dsimp; omega, by simp [hz]⟩
  · simp [hz] at h

theorem selectUniform3_fits {s d e} (h : selectUniform3 s d = .ok e) : d.Fits e := by
  unfold selectUniform3 at h
  cases h1 : firstFit (max d.x (max d.y d.z)) s with
  | none => simp [h1] at h
  | some sx =>
    simp only [h1] at h
    cases h
    have := firstFit_le h1
    exact ⟨by dsimp; omega, by dsimp; omega, by dsimp; omega⟩

theorem selectSizes_fits {tr d e} (h : selectSizes tr d = .ok e) : d.Fits e := by
  cases tr with
  | dflt =>
    simp only [selectSizes] at h
    split at h
    · exact selectUniform3_fits h
    · split at h
      · exact selectUniform2_fits h
      · exact selectUniform1_fits h
  | custom xs ys zs => exact selectCustom_fits h
  | uniform1 s => exact selectUniform1_fits h
  | uniform2 s => exact selectUniform2_fits h
  | uniform3 s => exact selectUniform3_fits h

end LFA
