import Verif.Sizes
import Verif.Functors

/-
  Machine arithmetic of the address computations (C48), alignment (C49) and the arity heuristics
  (C50), for an LP64 target: `long`, pointers and `size_t` have 64 bits, `int` has 32.
-/
namespace LFA.Mach

/-- Range of `long`. -/
def InLong (a : Int) : Prop := -2 ^ 63 ≤ a ∧ a < 2 ^ 63

/-- Range of `std::size_t`. -/
def InSize (a : Int) : Prop := 0 ≤ a ∧ a < 2 ^ 64

instance (a : Int) : Decidable (InLong a) := inferInstanceAs (Decidable (_ ∧ _))
instance (a : Int) : Decidable (InSize a) := inferInstanceAs (Decidable (_ ∧ _))

/-- `long` result (C++ [expr.pre]/4): `none` if it is not representable. -/
def long (a : Int) : Option Int := if InLong a then some a else none

/-- `std::size_t` result or conversion (C++ [basic.fundamental]/2): `none` if the value does not fit, i.e. if it would wrap. -/
def size (a : Int) : Option Int := if InSize a then some a else none

/-- Pointer `p + o` into a buffer of `n` bytes (C++ [expr.add]/4): `none` unless the result points into the buffer or one
past its end. -/
def ptr (n : Nat) (a : Int) : Option Int := if 0 ≤ a ∧ a ≤ n then some a else none

/-- `DIM_PROD` (macros.hpp:138), `long` arithmetic in the order of the source. -/
def dimProd (e : Ext) : Option Int := do
  let a ← long ((e.x : Int) * e.y)
  long (a * e.z)

/-- `gen_index` (macros.hpp:140-157): `z * DIM_X * DIM_Y + y * DIM_X + x`. -/
def genIndex (e : Ext) (x y z : Int) : Option Int := do
  let a ← long (z * e.x)
  let b ← long (a * e.y)
  let c ← long (y * e.x)
  let d ← long (b + c)
  long (d + x)

/-- `LIBFLATARRAY_INDEX` (detail/macros.hpp:30-31): `INDEX + Z * (DIM_X * DIM_Y) + Y * DIM_X + X`. -/
def shiftIndex (e : Ext) (I X Y Z : Int) : Option Int := do
  let a ← long ((e.x : Int) * e.y)
  let b ← long (Z * a)
  let c ← long (I + b)
  let d ← long (Y * e.x)
  let f ← long (c + d)
  long (f + X)

/-- `accessor.member<k>()` (detail/macros.hpp:92-107) in a buffer of `n` bytes: `DIM_PROD` is converted to `size_t`, then three
additions to the pointer `my_data`. -/
def member {V : Type} (L : Layout V) (n : Nat) (e : Ext) (I idx : Int) (r : Nat) (m : Member V) (k : Nat) : Option Int := do
  let P ← dimProd e
  let P ← size P
  let a ← size ((m.ty.size : Int) * k)
  let b ← size (a + offset L r)
  let c ← size (P * b)
  let p ← ptr n c
  let d ← long (idx * m.ty.size)
  let q ← ptr n (p + d)
  let f ← long (I * m.ty.size)
  ptr n (q + f)

/-- `accessor.access_member(size_of_member, offset)` (macros.hpp:340-349): all in `long`. -/
def accessMemberAt (n : Nat) (e : Ext) (I idx : Int) (s off : Nat) : Option Int := do
  let P ← dimProd e
  let c ← long (P * off)
  let p ← ptr n c
  let d ← long (idx * s)
  let q ← ptr n (p + d)
  let f ← long (I * s)
  ptr n (q + f)

/-- `set_byte_size_functor` (detail/set_byte_size_functor.hpp:50): `aggregated_member_size * DIM_X * DIM_Y * DIM_Z`. -/
def byteSize {V : Type} (L : Layout V) (e : Ext) : Option Int := do
  let a ← size ((aggSize L : Int) * e.x)
  let b ← size (a * e.y)
  size (b * e.z)

theorem long_ok {a : Int} (h1 : -2 ^ 63 ≤ a) (h2 : a < 2 ^ 63) : long a = some a := if_pos ⟨h1, h2⟩

theorem size_ok {a : Int} (h1 : 0 ≤ a) (h2 : a < 2 ^ 64) : size a = some a := if_pos ⟨h1, h2⟩

theorem ptr_ok {n : Nat} {a : Int} (h1 : 0 ≤ a) (h2 : a ≤ n) : ptr n a = some a := if_pos ⟨h1, h2⟩

/-! ### Arity heuristics -/

/-- Instruction sets distinguished by `ilp_to_arity` (ilp_to_arity.hpp:27-59); the preprocessor symbols which select them. -/
inductive Isa where
  | cudaDevice   -- __CUDA_ARCH__
  | qpx          -- __VECTOR4DOUBLE__
  | mic          -- __MIC__
  | neon         -- __ARM_NEON__
  | avx512       -- LFA_AVX512_HELPER
  | avx          -- __AVX__
  | sse          -- __SSE__
  | plain        -- none of these

/-- `BIT_WIDTH` (ilp_to_arity.hpp:34-57) for a cargo of `s` bytes; not defined on a CUDA device. With QPX alone both
`__VECTOR4DOUBLE__` and the "IBM PC" branch define the constant (34-36 and 46-58), which does not compile; with `__MIC__` (Knights Corner, which has neither SSE nor
`LFA_AVX512_HELPER`) no branch defines it: `none`. -/
def bitWidth : Isa → Nat → Option Nat
  | .cudaDevice, _ => none
  | .qpx, _ => none
  | .mic, _ => none
  | .neon, _ => some 128
  | .avx512, _ => some 512
  | .avx, _ => some 256
  | .sse, _ => some 128
  | .plain, s => some (s * 8)

/-- `ilp_to_arity<CARGO, ILP>::ARITY` (ilp_to_arity.hpp:22-63); `s` is `sizeof(CARGO)`. `none`: does not compile. -/
def arity (isa : Isa) (s ilp : Nat) : Option Nat :=
  match isa with
  | .cudaDevice => some 1
  | isa => do
    let w ← bitWidth isa s
    let a ← size ((ilp : Int) * w)
    pure (a.toNat / s / 8)

/-- The two classes between which `streaming_short_vec_switch` chooses (detail/streaming_short_vec_switch.hpp:18-31). -/
inductive VecKind where
  | temporal | streaming
deriving DecidableEq

/-- `streaming_short_vec_switch<CARGO, ARITY, FLAG>::VALUE` (detail/streaming_short_vec_switch.hpp:18-31). -/
def vecSwitch (flag : Int) : VecKind := if flag = 0 then .temporal else .streaming

/-- `estimate_optimum_short_vec_type<CARGO, ACCESSOR, UNROLL, CACHE>::VALUE` (estimate_optimum_short_vec_type.hpp:64-85): arity
and kind. `cell` is `sizeof(ACCESSOR::element_type)`. The quotient is computed in `size_t`, stored in a `long` and passed as
an `int` template argument; `none`: does not compile (division by zero, narrowing) or wraps. A negative `CACHE` is converted
to a huge `size_t`, that case is `none`, too. -/
def estimate (isa : Isa) (s : Nat) (e : Ext) (cell : Nat) (unroll : Nat) (cache : Int) : Option (Nat × VecKind) := do
  let a ← arity isa s unroll
  let P ← dimProd e
  let P ← size P
  let t ← size (P * cell)
  let c ← size cache
  if c = 0 then none
  else
    let flag := t / c
    if flag < 2 ^ 31 then pure (a, vecSwitch flag) else none

end LFA.Mach
