/-
  The interface of `short_vec`: what all implementations (detail/short_vec_*.hpp) have in common, and the functions of
  short_vec.hpp and streaming_short_vec.hpp which are written in terms of this interface.
-/
import Verif.SV.Base
set_option autoImplicit false

namespace LFA.SV

/-- An implementation of `short_vec<T, N>`. `none` is undefined behaviour. Models the members and free functions common to all classes
    (e.g. detail/short_vec_scalar_float_4.hpp:39-362). -/
structure Impl (w : Nat) where
  /-- `ARITY` -/
  N : Nat
  V : Type
  /-- lane `i` is element `i` -/
  lanes : V → List (BitVec w)
  /-- `short_vec(T)` -/
  bcast : FEnv → BitVec w → V
  /-- `+`, `-`, `*`, `/` -/
  add : FEnv → V → V → Option V
  sub : FEnv → V → V → Option V
  mul : FEnv → V → V → Option V
  div : FEnv → V → V → Option V
  /-- `+=`, `-=`, `*=`, `/=`: the new value of the object -/
  addA : FEnv → V → V → Option V
  subA : FEnv → V → V → Option V
  mulA : FEnv → V → V → Option V
  divA : FEnv → V → V → Option V
  /-- `short_vec(sqrt(v))` -/
  sqrt : FEnv → V → Option V
  /-- `v.sqrt()` -/
  sqrtM : FEnv → V → Option V
  /-- `a / sqrt(b)` -/
  divSqrt : FEnv → V → V → Option V
  /-- `a /= sqrt(b)` -/
  divSqrtA : FEnv → V → V → Option V
  /-- `load(p)`, `load_aligned(p)`: the new value of the object -/
  load : FEnv → Mem w → V → Int → Option V
  loadA : FEnv → Mem w → V → Int → Option V
  /-- `short_vec(p)`, `short_vec({…})` (the list is an array at this address) -/
  ofPtr : FEnv → Mem w → Int → Option V
  ofList : FEnv → Mem w → Int → Option V
  /-- `store(p)`, `store_aligned(p)`, `store_nt(p)`, `p << v` -/
  store : FEnv → V → Int → Option (Writes w)
  storeA : FEnv → V → Int → Option (Writes w)
  storeNT : FEnv → V → Int → Option (Writes w)
  shl : FEnv → V → Int → Option (Writes w)
  /-- `gather(p, offsets)`, `scatter(p, offsets)`. Offsets are in a memory of `int`. -/
  gather : FEnv → Mem w → Mem 32 → V → Int → Int → Option V
  scatter : FEnv → Mem 32 → V → Int → Int → Option (Writes w)
  /-- `stream << v` -/
  print : FEnv → V → List (Out w)

/-- The type of masks: an unsigned integer with the given number of bits, or the vector itself. -/
inductive MaskKind (V : Type) : Type → Type 1
  | bits (b : Nat) : MaskKind V (BitVec b)
  | vec : MaskKind V V

/-- Comparisons and what depends on them. Not all classes have these. -/
structure Cmp {w : Nat} (I : Impl w) where
  /-- `mask_type` -/
  M : Type
  kind : MaskKind I.V M
  lt : FEnv → I.V → I.V → Option M
  le : FEnv → I.V → I.V → Option M
  eq : FEnv → I.V → I.V → Option M
  gt : FEnv → I.V → I.V → Option M
  ge : FEnv → I.V → I.V → Option M
  /-- `v.blend(mask, other)`: the new value of the object -/
  blend : FEnv → I.V → M → I.V → I.V
  /-- `v.any()` -/
  vany : FEnv → I.V → Bool
  /-- `v[i]` -/
  index : FEnv → I.V → BitVec 32 → Option (BitVec w)

section
variable {w : Nat} {V M : Type}

/-- `any(mask)` (short_vec.hpp:62-81), converted to `bool`. -/
def anyOf (vany : V → Bool) : MaskKind V M → M → Bool
  | .bits _, m => m != 0
  | .vec, m => vany m

/-- `get(mask, i)` (short_vec.hpp:83-102), converted to `bool`. Integers are promoted, shifts by negative numbers or by 32 and more are
    undefined. -/
def getOf (index : V → BitVec 32 → Option (BitVec w)) : MaskKind V M → M → BitVec 32 → Option Bool
  | .bits _, m, i => if 0 ≤ i.toInt ∧ i.toInt < 32 then some (promote m >>> i.toInt.toNat &&& 1 != 0) else none
  | .vec, m, i => (index m i).map truthy

variable {I : Impl w}

/-- `any(mask)` -/
def Cmp.any (C : Cmp I) (E : FEnv) (m : C.M) : Bool := anyOf (C.vany E) C.kind m

/-- `get(mask, i)` -/
def Cmp.get (C : Cmp I) (E : FEnv) (m : C.M) (i : BitVec 32) : Option Bool := getOf (C.index E) C.kind m i

/-- `blend(v1, v2, mask)` (short_vec.hpp:114-121) -/
def Cmp.blendFn (C : Cmp I) (E : FEnv) (v1 v2 : I.V) (m : C.M) : I.V :=
  let ret := v1
  let ret := C.blend E ret m v2
  ret

/-- The loop of `count_mask` (short_vec.hpp:140-142): `i` from `i` up to `ARITY`. `F` are the operations on elements of the vector. -/
def Cmp.countLoop (C : Cmp I) (E : FEnv) (F : FOps w) (v : I.V) : Nat → Nat → Nat → Option Nat
  | 0, _, sum => some sum
  | n + 1, i, sum => do
    let x ← C.index E v (BitVec.ofNat 32 i)
    C.countLoop E F v n (i + 1) (sum + F.toSize x)

/-- `count_mask(mask)` (short_vec.hpp:129-145) -/
def Cmp.countMask (C : Cmp I) (E : FEnv) (F : FOps w) (m : C.M) : Option Nat :=
  if C.any E m then
    C.countLoop E F (C.blend E (I.bcast E F.zero) m (I.bcast E F.one)) I.N 0 0
  else some 0

end

section
variable {w : Nat} (I : Impl w) (E : FEnv)

/-- `a + b`, where `a` is a number (short_vec.hpp:31-35) -/
def Impl.addL (a : BitVec w) (b : I.V) : Option I.V := I.add E (I.bcast E a) b
/-- `a - b` (short_vec.hpp:37-41) -/
def Impl.subL (a : BitVec w) (b : I.V) : Option I.V := I.sub E (I.bcast E a) b
/-- `a * b` (short_vec.hpp:43-47) -/
def Impl.mulL (a : BitVec w) (b : I.V) : Option I.V := I.mul E (I.bcast E a) b
/-- `a / b` (short_vec.hpp:49-53) -/
def Impl.divL (a : BitVec w) (b : I.V) : Option I.V := I.div E (I.bcast E a) b
/-- `sqrt(a) / b` (detail/sqrt_reference.hpp:16-20) -/
def Impl.sqrtDiv (a b : I.V) : Option I.V := (I.sqrt E a).bind fun a => I.div E a b
/-- `sqrt(a) / b`, where `b` is a number (detail/sqrt_reference.hpp:22-26). The number is converted to a vector. -/
def Impl.sqrtDivR (a : I.V) (b : BitVec w) : Option I.V := (I.sqrt E a).bind fun a => I.div E a (I.bcast E b)
/-- `streaming_short_vec::store` (streaming_short_vec.hpp:71-75) -/
def Impl.streamingStore (v : I.V) (p : Int) : Option (Writes w) := I.storeNT E v p
/-- `streaming_short_vec::store_aligned` (streaming_short_vec.hpp:77-81) -/
def Impl.streamingStoreA (v : I.V) (p : Int) : Option (Writes w) := I.storeNT E v p
end

/-- The classes in `short_vec_strategy` (short_vec.hpp:146-269) which are used by implementations. -/
inductive Strategy | scalar | avx | avx2 | avx512f | sse | mic | neon
  deriving DecidableEq, Repr

/-- `alignment<CARGO>::ALIGNMENT` in bytes, given `sizeof(CARGO)` (short_vec.hpp:146-269) -/
def Strategy.alignment (size : Nat) : Strategy → Nat
  | .scalar => size
  | .avx => 32
  | .avx2 => 32
  | .avx512f => 64
  | .sse => 16
  | .mic => 32
  | .neon => 16

/-- Targets: values of `LIBFLATARRAY_WIDEST_VECTOR_ISA` (short_vec.hpp:272-330). `neon_prec` is NEON with
    `LIBFLATARRAY_WITH_INCREASED_PRECISION`, `lp64` stands for `__LP64__`. -/
inductive Cfg | scalar | qpx | neon | neon_lp64 | neon_prec | neon_prec_lp64 | mic | avx512f | avx | avx2 | sse | sse2 | sse41
  deriving DecidableEq, Repr

/-- A specialization of `short_vec`: its interface, comparisons (if it has all of these, and `any`, `[]` and `blend`) and `strategy` (if it
    has this typedef). -/
structure Entry (w : Nat) where
  impl : Impl w
  cmp : Option (Cmp impl)
  strategy : Option Strategy

/-- `alignment<short_vec<T, ARITY> >::VALUE` (alignment.hpp:20-26). `none`: does not compile. -/
def Entry.alignment {w : Nat} (e : Entry w) : Option Nat := e.strategy.map (Strategy.alignment (w / 8))

end LFA.SV
