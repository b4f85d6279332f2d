/-
  Generated by tools/sv_proofs.py: the interface records of all classes, and which class provides short_vec<T, N> for which
  target (short_vec.hpp:170-330 selects the widest instruction set, the headers in detail/ are guarded accordingly).
-/
import Verif.SV.AvxDouble
import Verif.SV.AvxFloat
import Verif.SV.AvxInt
import Verif.SV.Avx512Double
import Verif.SV.Avx512Float
import Verif.SV.Avx512Int
import Verif.SV.MicDouble
import Verif.SV.MicFloat
import Verif.SV.NeonFloat
import Verif.SV.QpxDouble
import Verif.SV.ScalarDouble
import Verif.SV.ScalarFloat
import Verif.SV.ScalarInt
import Verif.SV.SseDouble
import Verif.SV.SseFloat
import Verif.SV.SseInt
import Verif.SV.Impl
set_option autoImplicit false
set_option linter.unusedSimpArgs false
set_option linter.unusedVariables false
set_option maxRecDepth 100000
open LFA.SV

namespace LFA.SV.AvxDouble4
/-- short_vec_avx_double_4.hpp, if compiled for avx512f, avx2. -/
def impl_avx512f : Impl 64 where
  N := 4
  V := V
  lanes := V.lanes
  bcast := bcast
  add E a b := some (opAdd E a b)
  sub E a b := some (opSub E a b)
  mul E a b := some (opMul E a b)
  div E a b := some (opDiv E a b)
  addA E a b := some (opAddAssign E a b)
  subA E a b := some (opSubAssign E a b)
  mulA E a b := some (opMulAssign E a b)
  divA E a b := some (opDivAssign E a b)
  sqrt E a := some (sqrtFn E a)
  sqrtM E a := some (sqrt E a)
  divSqrt E a b := some (opDiv E a (sqrtFn E b))
  divSqrtA E a b := some (opDivAssign E a (sqrtFn E b))
  load E m v p := load E m v p
  loadA E m v p := load_aligned E m v p
  ofPtr E m p := ofPtr E m p
  ofList E m p := ofList E m p
  store E v p := store E v p
  storeA E v p := store_aligned E v p
  storeNT E v p := store_nt E v p
  shl E v p := opStore E p v
  gather E m mo v p o := gather_avx512f E m mo v p o
  scatter E mo v p o := scatter E mo v p o
  print := print

/-- Comparisons of short_vec_avx_double_4.hpp. -/
def cmp_avx512f : Cmp impl_avx512f where
  M := V
  kind := .vec
  lt E a b := some (opLt E a b)
  le E a b := some (opLe E a b)
  eq E a b := some (opEq E a b)
  gt E a b := some (opGt E a b)
  ge E a b := some (opGe E a b)
  blend := blend
  vany := any
  index E v i := some (opIndex E v i)

end LFA.SV.AvxDouble4

namespace LFA.SV.AvxDouble4
/-- short_vec_avx_double_4.hpp, if compiled for avx. -/
def impl_avx : Impl 64 where
  N := 4
  V := V
  lanes := V.lanes
  bcast := bcast
  add E a b := some (opAdd E a b)
  sub E a b := some (opSub E a b)
  mul E a b := some (opMul E a b)
  div E a b := some (opDiv E a b)
  addA E a b := some (opAddAssign E a b)
  subA E a b := some (opSubAssign E a b)
  mulA E a b := some (opMulAssign E a b)
  divA E a b := some (opDivAssign E a b)
  sqrt E a := some (sqrtFn E a)
  sqrtM E a := some (sqrt E a)
  divSqrt E a b := some (opDiv E a (sqrtFn E b))
  divSqrtA E a b := some (opDivAssign E a (sqrtFn E b))
  load E m v p := load E m v p
  loadA E m v p := load_aligned E m v p
  ofPtr E m p := ofPtr E m p
  ofList E m p := ofList E m p
  store E v p := store E v p
  storeA E v p := store_aligned E v p
  storeNT E v p := store_nt E v p
  shl E v p := opStore E p v
  gather E m mo v p o := gather_avx E m mo v p o
  scatter E mo v p o := scatter E mo v p o
  print := print

/-- Comparisons of short_vec_avx_double_4.hpp. -/
def cmp_avx : Cmp impl_avx where
  M := V
  kind := .vec
  lt E a b := some (opLt E a b)
  le E a b := some (opLe E a b)
  eq E a b := some (opEq E a b)
  gt E a b := some (opGt E a b)
  ge E a b := some (opGe E a b)
  blend := blend
  vany := any
  index E v i := some (opIndex E v i)

end LFA.SV.AvxDouble4

namespace LFA.SV.AvxDouble8
/-- short_vec_avx_double_8.hpp, if compiled for avx. -/
def impl_avx : Impl 64 where
  N := 8
  V := V
  lanes := V.lanes
  bcast := bcast
  add E a b := some (opAdd E a b)
  sub E a b := some (opSub E a b)
  mul E a b := some (opMul E a b)
  div E a b := some (opDiv E a b)
  addA E a b := some (opAddAssign E a b)
  subA E a b := some (opSubAssign E a b)
  mulA E a b := some (opMulAssign E a b)
  divA E a b := some (opDivAssign E a b)
  sqrt E a := some (sqrtFn E a)
  sqrtM E a := some (sqrt E a)
  divSqrt E a b := some (opDiv E a (sqrtFn E b))
  divSqrtA E a b := some (opDivAssign E a (sqrtFn E b))
  load E m v p := load E m v p
  loadA E m v p := load_aligned E m v p
  ofPtr E m p := ofPtr E m p
  ofList E m p := ofList E m p
  store E v p := store E v p
  storeA E v p := store_aligned E v p
  storeNT E v p := store_nt E v p
  shl E v p := opStore E p v
  gather E m mo v p o := gather_avx E m mo v p o
  scatter E mo v p o := scatter E mo v p o
  print := print

/-- Comparisons of short_vec_avx_double_8.hpp. -/
def cmp_avx : Cmp impl_avx where
  M := V
  kind := .vec
  lt E a b := some (opLt E a b)
  le E a b := some (opLe E a b)
  eq E a b := some (opEq E a b)
  gt E a b := some (opGt E a b)
  ge E a b := some (opGe E a b)
  blend := blend
  vany := any
  index E v i := opIndex E v i

end LFA.SV.AvxDouble8

namespace LFA.SV.AvxDouble8
/-- short_vec_avx_double_8.hpp, if compiled for avx2. -/
def impl_avx2 : Impl 64 where
  N := 8
  V := V
  lanes := V.lanes
  bcast := bcast
  add E a b := some (opAdd E a b)
  sub E a b := some (opSub E a b)
  mul E a b := some (opMul E a b)
  div E a b := some (opDiv E a b)
  addA E a b := some (opAddAssign E a b)
  subA E a b := some (opSubAssign E a b)
  mulA E a b := some (opMulAssign E a b)
  divA E a b := some (opDivAssign E a b)
  sqrt E a := some (sqrtFn E a)
  sqrtM E a := some (sqrt E a)
  divSqrt E a b := some (opDiv E a (sqrtFn E b))
  divSqrtA E a b := some (opDivAssign E a (sqrtFn E b))
  load E m v p := load E m v p
  loadA E m v p := load_aligned E m v p
  ofPtr E m p := ofPtr E m p
  ofList E m p := ofList E m p
  store E v p := store E v p
  storeA E v p := store_aligned E v p
  storeNT E v p := store_nt E v p
  shl E v p := opStore E p v
  gather E m mo v p o := gather_avx2 E m mo v p o
  scatter E mo v p o := scatter E mo v p o
  print := print

/-- Comparisons of short_vec_avx_double_8.hpp. -/
def cmp_avx2 : Cmp impl_avx2 where
  M := V
  kind := .vec
  lt E a b := some (opLt E a b)
  le E a b := some (opLe E a b)
  eq E a b := some (opEq E a b)
  gt E a b := some (opGt E a b)
  ge E a b := some (opGe E a b)
  blend := blend
  vany := any
  index E v i := opIndex E v i

end LFA.SV.AvxDouble8

namespace LFA.SV.AvxDouble16
/-- short_vec_avx_double_16.hpp, if compiled for avx. -/
def impl_avx : Impl 64 where
  N := 16
  V := V
  lanes := V.lanes
  bcast := bcast
  add E a b := some (opAdd E a b)
  sub E a b := some (opSub E a b)
  mul E a b := some (opMul E a b)
  div E a b := some (opDiv E a b)
  addA E a b := some (opAddAssign E a b)
  subA E a b := some (opSubAssign E a b)
  mulA E a b := some (opMulAssign E a b)
  divA E a b := some (opDivAssign E a b)
  sqrt E a := some (sqrtFn E a)
  sqrtM E a := some (sqrt E a)
  divSqrt E a b := some (opDiv E a (sqrtFn E b))
  divSqrtA E a b := some (opDivAssign E a (sqrtFn E b))
  load E m v p := load E m v p
  loadA E m v p := load_aligned E m v p
  ofPtr E m p := ofPtr E m p
  ofList E m p := ofList E m p
  store E v p := store E v p
  storeA E v p := store_aligned E v p
  storeNT E v p := store_nt E v p
  shl E v p := opStore E p v
  gather E m mo v p o := gather_avx E m mo v p o
  scatter E mo v p o := scatter E mo v p o
  print := print

/-- Comparisons of short_vec_avx_double_16.hpp. -/
def cmp_avx : Cmp impl_avx where
  M := V
  kind := .vec
  lt E a b := some (opLt E a b)
  le E a b := some (opLe E a b)
  eq E a b := some (opEq E a b)
  gt E a b := some (opGt E a b)
  ge E a b := some (opGe E a b)
  blend := blend
  vany := any
  index E v i := opIndex E v i

end LFA.SV.AvxDouble16

namespace LFA.SV.AvxDouble16
/-- short_vec_avx_double_16.hpp, if compiled for avx2. -/
def impl_avx2 : Impl 64 where
  N := 16
  V := V
  lanes := V.lanes
  bcast := bcast
  add E a b := some (opAdd E a b)
  sub E a b := some (opSub E a b)
  mul E a b := some (opMul E a b)
  div E a b := some (opDiv E a b)
  addA E a b := some (opAddAssign E a b)
  subA E a b := some (opSubAssign E a b)
  mulA E a b := some (opMulAssign E a b)
  divA E a b := some (opDivAssign E a b)
  sqrt E a := some (sqrtFn E a)
  sqrtM E a := some (sqrt E a)
  divSqrt E a b := some (opDiv E a (sqrtFn E b))
  divSqrtA E a b := some (opDivAssign E a (sqrtFn E b))
  load E m v p := load E m v p
  loadA E m v p := load_aligned E m v p
  ofPtr E m p := ofPtr E m p
  ofList E m p := ofList E m p
  store E v p := store E v p
  storeA E v p := store_aligned E v p
  storeNT E v p := store_nt E v p
  shl E v p := opStore E p v
  gather E m mo v p o := gather_avx2 E m mo v p o
  scatter E mo v p o := scatter E mo v p o
  print := print

/-- Comparisons of short_vec_avx_double_16.hpp. -/
def cmp_avx2 : Cmp impl_avx2 where
  M := V
  kind := .vec
  lt E a b := some (opLt E a b)
  le E a b := some (opLe E a b)
  eq E a b := some (opEq E a b)
  gt E a b := some (opGt E a b)
  ge E a b := some (opGe E a b)
  blend := blend
  vany := any
  index E v i := opIndex E v i

end LFA.SV.AvxDouble16

namespace LFA.SV.AvxDouble32
/-- short_vec_avx_double_32.hpp, if compiled for avx. -/
def impl_avx : Impl 64 where
  N := 32
  V := V
  lanes := V.lanes
  bcast := bcast
  add E a b := some (opAdd E a b)
  sub E a b := some (opSub E a b)
  mul E a b := some (opMul E a b)
  div E a b := some (opDiv E a b)
  addA E a b := some (opAddAssign E a b)
  subA E a b := some (opSubAssign E a b)
  mulA E a b := some (opMulAssign E a b)
  divA E a b := some (opDivAssign E a b)
  sqrt E a := some (sqrtFn E a)
  sqrtM E a := some (sqrt E a)
  divSqrt E a b := some (opDiv E a (sqrtFn E b))
  divSqrtA E a b := some (opDivAssign E a (sqrtFn E b))
  load E m v p := load E m v p
  loadA E m v p := load_aligned E m v p
  ofPtr E m p := ofPtr E m p
  ofList E m p := ofList E m p
  store E v p := store E v p
  storeA E v p := store_aligned E v p
  storeNT E v p := store_nt E v p
  shl E v p := opStore E p v
  gather E m mo v p o := gather_avx E m mo v p o
  scatter E mo v p o := scatter E mo v p o
  print := print

/-- Comparisons of short_vec_avx_double_32.hpp. -/
def cmp_avx : Cmp impl_avx where
  M := V
  kind := .vec
  lt E a b := some (opLt E a b)
  le E a b := some (opLe E a b)
  eq E a b := some (opEq E a b)
  gt E a b := some (opGt E a b)
  ge E a b := some (opGe E a b)
  blend := blend
  vany := any
  index E v i := opIndex E v i

end LFA.SV.AvxDouble32

namespace LFA.SV.AvxDouble32
/-- short_vec_avx_double_32.hpp, if compiled for avx2. -/
def impl_avx2 : Impl 64 where
  N := 32
  V := V
  lanes := V.lanes
  bcast := bcast
  add E a b := some (opAdd E a b)
  sub E a b := some (opSub E a b)
  mul E a b := some (opMul E a b)
  div E a b := some (opDiv E a b)
  addA E a b := some (opAddAssign E a b)
  subA E a b := some (opSubAssign E a b)
  mulA E a b := some (opMulAssign E a b)
  divA E a b := some (opDivAssign E a b)
  sqrt E a := some (sqrtFn E a)
  sqrtM E a := some (sqrt E a)
  divSqrt E a b := some (opDiv E a (sqrtFn E b))
  divSqrtA E a b := some (opDivAssign E a (sqrtFn E b))
  load E m v p := load E m v p
  loadA E m v p := load_aligned E m v p
  ofPtr E m p := ofPtr E m p
  ofList E m p := ofList E m p
  store E v p := store E v p
  storeA E v p := store_aligned E v p
  storeNT E v p := store_nt E v p
  shl E v p := opStore E p v
  gather E m mo v p o := gather_avx2 E m mo v p o
  scatter E mo v p o := scatter E mo v p o
  print := print

/-- Comparisons of short_vec_avx_double_32.hpp. -/
def cmp_avx2 : Cmp impl_avx2 where
  M := V
  kind := .vec
  lt E a b := some (opLt E a b)
  le E a b := some (opLe E a b)
  eq E a b := some (opEq E a b)
  gt E a b := some (opGt E a b)
  ge E a b := some (opGe E a b)
  blend := blend
  vany := any
  index E v i := opIndex E v i

end LFA.SV.AvxDouble32

namespace LFA.SV.AvxFloat8
/-- short_vec_avx_float_8.hpp, if compiled for avx512f, avx2. -/
def impl_avx512f : Impl 32 where
  N := 8
  V := V
  lanes := V.lanes
  bcast := bcast
  add E a b := some (opAdd E a b)
  sub E a b := some (opSub E a b)
  mul E a b := some (opMul E a b)
  div E a b := some (opDiv E a b)
  addA E a b := some (opAddAssign E a b)
  subA E a b := some (opSubAssign E a b)
  mulA E a b := some (opMulAssign E a b)
  divA E a b := some (opDivAssign E a b)
  sqrt E a := some (ofSqrt E ⟨a⟩)
  sqrtM E a := some (sqrt E a)
  divSqrt E a b := some (opDivSqrt E a ⟨b⟩)
  divSqrtA E a b := some (opDivAssignSqrt E a ⟨b⟩)
  load E m v p := load E m v p
  loadA E m v p := load_aligned E m v p
  ofPtr E m p := ofPtr E m p
  ofList E m p := ofList E m p
  store E v p := store E v p
  storeA E v p := store_aligned E v p
  storeNT E v p := store_nt E v p
  shl E v p := opStore E p v
  gather E m mo v p o := gather_avx512f E m mo v p o
  scatter E mo v p o := scatter E mo v p o
  print := print

/-- Comparisons of short_vec_avx_float_8.hpp. -/
def cmp_avx512f : Cmp impl_avx512f where
  M := V
  kind := .vec
  lt E a b := some (opLt E a b)
  le E a b := some (opLe E a b)
  eq E a b := some (opEq E a b)
  gt E a b := some (opGt E a b)
  ge E a b := some (opGe E a b)
  blend := blend
  vany := any
  index E v i := some (opIndex E v i)

end LFA.SV.AvxFloat8

namespace LFA.SV.AvxFloat8
/-- short_vec_avx_float_8.hpp, if compiled for avx. -/
def impl_avx : Impl 32 where
  N := 8
  V := V
  lanes := V.lanes
  bcast := bcast
  add E a b := some (opAdd E a b)
  sub E a b := some (opSub E a b)
  mul E a b := some (opMul E a b)
  div E a b := some (opDiv E a b)
  addA E a b := some (opAddAssign E a b)
  subA E a b := some (opSubAssign E a b)
  mulA E a b := some (opMulAssign E a b)
  divA E a b := some (opDivAssign E a b)
  sqrt E a := some (ofSqrt E ⟨a⟩)
  sqrtM E a := some (sqrt E a)
  divSqrt E a b := some (opDivSqrt E a ⟨b⟩)
  divSqrtA E a b := some (opDivAssignSqrt E a ⟨b⟩)
  load E m v p := load E m v p
  loadA E m v p := load_aligned E m v p
  ofPtr E m p := ofPtr E m p
  ofList E m p := ofList E m p
  store E v p := store E v p
  storeA E v p := store_aligned E v p
  storeNT E v p := store_nt E v p
  shl E v p := opStore E p v
  gather E m mo v p o := gather_avx E m mo v p o
  scatter E mo v p o := scatter E mo v p o
  print := print

/-- Comparisons of short_vec_avx_float_8.hpp. -/
def cmp_avx : Cmp impl_avx where
  M := V
  kind := .vec
  lt E a b := some (opLt E a b)
  le E a b := some (opLe E a b)
  eq E a b := some (opEq E a b)
  gt E a b := some (opGt E a b)
  ge E a b := some (opGe E a b)
  blend := blend
  vany := any
  index E v i := some (opIndex E v i)

end LFA.SV.AvxFloat8

namespace LFA.SV.AvxFloat16
/-- short_vec_avx_float_16.hpp, if compiled for avx. -/
def impl_avx : Impl 32 where
  N := 16
  V := V
  lanes := V.lanes
  bcast := bcast
  add E a b := some (opAdd E a b)
  sub E a b := some (opSub E a b)
  mul E a b := some (opMul E a b)
  div E a b := some (opDiv E a b)
  addA E a b := some (opAddAssign E a b)
  subA E a b := some (opSubAssign E a b)
  mulA E a b := some (opMulAssign E a b)
  divA E a b := some (opDivAssign E a b)
  sqrt E a := some (ofSqrt E ⟨a⟩)
  sqrtM E a := some (sqrt E a)
  divSqrt E a b := some (opDivSqrt E a ⟨b⟩)
  divSqrtA E a b := some (opDivAssignSqrt E a ⟨b⟩)
  load E m v p := load E m v p
  loadA E m v p := load_aligned E m v p
  ofPtr E m p := ofPtr E m p
  ofList E m p := ofList E m p
  store E v p := store E v p
  storeA E v p := store_aligned E v p
  storeNT E v p := store_nt E v p
  shl E v p := opStore E p v
  gather E m mo v p o := gather_avx E m mo v p o
  scatter E mo v p o := scatter E mo v p o
  print := print

/-- Comparisons of short_vec_avx_float_16.hpp. -/
def cmp_avx : Cmp impl_avx where
  M := V
  kind := .vec
  lt E a b := some (opLt E a b)
  le E a b := some (opLe E a b)
  eq E a b := some (opEq E a b)
  gt E a b := some (opGt E a b)
  ge E a b := some (opGe E a b)
  blend := blend
  vany := any
  index E v i := opIndex E v i

end LFA.SV.AvxFloat16

namespace LFA.SV.AvxFloat16
/-- short_vec_avx_float_16.hpp, if compiled for avx2. -/
def impl_avx2 : Impl 32 where
  N := 16
  V := V
  lanes := V.lanes
  bcast := bcast
  add E a b := some (opAdd E a b)
  sub E a b := some (opSub E a b)
  mul E a b := some (opMul E a b)
  div E a b := some (opDiv E a b)
  addA E a b := some (opAddAssign E a b)
  subA E a b := some (opSubAssign E a b)
  mulA E a b := some (opMulAssign E a b)
  divA E a b := some (opDivAssign E a b)
  sqrt E a := some (ofSqrt E ⟨a⟩)
  sqrtM E a := some (sqrt E a)
  divSqrt E a b := some (opDivSqrt E a ⟨b⟩)
  divSqrtA E a b := some (opDivAssignSqrt E a ⟨b⟩)
  load E m v p := load E m v p
  loadA E m v p := load_aligned E m v p
  ofPtr E m p := ofPtr E m p
  ofList E m p := ofList E m p
  store E v p := store E v p
  storeA E v p := store_aligned E v p
  storeNT E v p := store_nt E v p
  shl E v p := opStore E p v
  gather E m mo v p o := gather_avx2 E m mo v p o
  scatter E mo v p o := scatter E mo v p o
  print := print

/-- Comparisons of short_vec_avx_float_16.hpp. -/
def cmp_avx2 : Cmp impl_avx2 where
  M := V
  kind := .vec
  lt E a b := some (opLt E a b)
  le E a b := some (opLe E a b)
  eq E a b := some (opEq E a b)
  gt E a b := some (opGt E a b)
  ge E a b := some (opGe E a b)
  blend := blend
  vany := any
  index E v i := opIndex E v i

end LFA.SV.AvxFloat16

namespace LFA.SV.AvxFloat32
/-- short_vec_avx_float_32.hpp, if compiled for avx. -/
def impl_avx : Impl 32 where
  N := 32
  V := V
  lanes := V.lanes
  bcast := bcast
  add E a b := some (opAdd E a b)
  sub E a b := some (opSub E a b)
  mul E a b := some (opMul E a b)
  div E a b := some (opDiv E a b)
  addA E a b := some (opAddAssign E a b)
  subA E a b := some (opSubAssign E a b)
  mulA E a b := some (opMulAssign E a b)
  divA E a b := some (opDivAssign E a b)
  sqrt E a := some (ofSqrt E ⟨a⟩)
  sqrtM E a := some (sqrt E a)
  divSqrt E a b := some (opDivSqrt E a ⟨b⟩)
  divSqrtA E a b := some (opDivAssignSqrt E a ⟨b⟩)
  load E m v p := load E m v p
  loadA E m v p := load_aligned E m v p
  ofPtr E m p := ofPtr E m p
  ofList E m p := ofList E m p
  store E v p := store E v p
  storeA E v p := store_aligned E v p
  storeNT E v p := store_nt E v p
  shl E v p := opStore E p v
  gather E m mo v p o := gather_avx E m mo v p o
  scatter E mo v p o := scatter E mo v p o
  print := print

/-- Comparisons of short_vec_avx_float_32.hpp. -/
def cmp_avx : Cmp impl_avx where
  M := V
  kind := .vec
  lt E a b := some (opLt E a b)
  le E a b := some (opLe E a b)
  eq E a b := some (opEq E a b)
  gt E a b := some (opGt E a b)
  ge E a b := some (opGe E a b)
  blend := blend
  vany := any
  index E v i := opIndex E v i

end LFA.SV.AvxFloat32

namespace LFA.SV.AvxFloat32
/-- short_vec_avx_float_32.hpp, if compiled for avx2. -/
def impl_avx2 : Impl 32 where
  N := 32
  V := V
  lanes := V.lanes
  bcast := bcast
  add E a b := some (opAdd E a b)
  sub E a b := some (opSub E a b)
  mul E a b := some (opMul E a b)
  div E a b := some (opDiv E a b)
  addA E a b := some (opAddAssign E a b)
  subA E a b := some (opSubAssign E a b)
  mulA E a b := some (opMulAssign E a b)
  divA E a b := some (opDivAssign E a b)
  sqrt E a := some (ofSqrt E ⟨a⟩)
  sqrtM E a := some (sqrt E a)
  divSqrt E a b := some (opDivSqrt E a ⟨b⟩)
  divSqrtA E a b := some (opDivAssignSqrt E a ⟨b⟩)
  load E m v p := load E m v p
  loadA E m v p := load_aligned E m v p
  ofPtr E m p := ofPtr E m p
  ofList E m p := ofList E m p
  store E v p := store E v p
  storeA E v p := store_aligned E v p
  storeNT E v p := store_nt E v p
  shl E v p := opStore E p v
  gather E m mo v p o := gather_avx2 E m mo v p o
  scatter E mo v p o := scatter E mo v p o
  print := print

/-- Comparisons of short_vec_avx_float_32.hpp. -/
def cmp_avx2 : Cmp impl_avx2 where
  M := V
  kind := .vec
  lt E a b := some (opLt E a b)
  le E a b := some (opLe E a b)
  eq E a b := some (opEq E a b)
  gt E a b := some (opGt E a b)
  ge E a b := some (opGe E a b)
  blend := blend
  vany := any
  index E v i := opIndex E v i

end LFA.SV.AvxFloat32

namespace LFA.SV.AvxInt8
/-- short_vec_avx_int_8.hpp, if compiled for avx512f, avx2. -/
def impl : Impl 32 where
  N := 8
  V := V
  lanes := V.lanes
  bcast := bcast
  add E a b := some (opAdd E a b)
  sub E a b := some (opSub E a b)
  mul E a b := some (opMul E a b)
  div E a b := some (opDiv E a b)
  addA E a b := some (opAddAssign E a b)
  subA E a b := some (opSubAssign E a b)
  mulA E a b := some (opMulAssign E a b)
  divA E a b := some (opDivAssign E a b)
  sqrt E a := some (ofSqrt E ⟨a⟩)
  sqrtM E a := some (sqrt E a)
  divSqrt E a b := some (opDivSqrt E a ⟨b⟩)
  divSqrtA E a b := some (opDivAssignSqrt E a ⟨b⟩)
  load E m v p := load E m v p
  loadA E m v p := load_aligned E m v p
  ofPtr E m p := ofPtr E m p
  ofList E m p := ofList E m p
  store E v p := store E v p
  storeA E v p := store_aligned E v p
  storeNT E v p := store_nt E v p
  shl E v p := opStore E p v
  gather E m mo v p o := gather E m mo v p o
  scatter E mo v p o := scatter E mo v p o
  print := print

end LFA.SV.AvxInt8

namespace LFA.SV.AvxInt16
/-- short_vec_avx_int_16.hpp, if compiled for avx2. -/
def impl : Impl 32 where
  N := 16
  V := V
  lanes := V.lanes
  bcast := bcast
  add E a b := some (opAdd E a b)
  sub E a b := some (opSub E a b)
  mul E a b := some (opMul E a b)
  div E a b := some (opDiv E a b)
  addA E a b := some (opAddAssign E a b)
  subA E a b := some (opSubAssign E a b)
  mulA E a b := some (opMulAssign E a b)
  divA E a b := some (opDivAssign E a b)
  sqrt E a := some (ofSqrt E ⟨a⟩)
  sqrtM E a := some (sqrt E a)
  divSqrt E a b := some (opDivSqrt E a ⟨b⟩)
  divSqrtA E a b := some (opDivAssignSqrt E a ⟨b⟩)
  load E m v p := load E m v p
  loadA E m v p := load_aligned E m v p
  ofPtr E m p := ofPtr E m p
  ofList E m p := ofList E m p
  store E v p := store E v p
  storeA E v p := store_aligned E v p
  storeNT E v p := store_nt E v p
  shl E v p := opStore E p v
  gather E m mo v p o := gather E m mo v p o
  scatter E mo v p o := scatter E mo v p o
  print := print

end LFA.SV.AvxInt16

namespace LFA.SV.AvxInt32
/-- short_vec_avx_int_32.hpp, if compiled for avx2. -/
def impl : Impl 32 where
  N := 32
  V := V
  lanes := V.lanes
  bcast := bcast
  add E a b := some (opAdd E a b)
  sub E a b := some (opSub E a b)
  mul E a b := some (opMul E a b)
  div E a b := some (opDiv E a b)
  addA E a b := some (opAddAssign E a b)
  subA E a b := some (opSubAssign E a b)
  mulA E a b := some (opMulAssign E a b)
  divA E a b := some (opDivAssign E a b)
  sqrt E a := some (ofSqrt E ⟨a⟩)
  sqrtM E a := some (sqrt E a)
  divSqrt E a b := some (opDivSqrt E a ⟨b⟩)
  divSqrtA E a b := some (opDivAssignSqrt E a ⟨b⟩)
  load E m v p := load E m v p
  loadA E m v p := load_aligned E m v p
  ofPtr E m p := ofPtr E m p
  ofList E m p := ofList E m p
  store E v p := store E v p
  storeA E v p := store_aligned E v p
  storeNT E v p := store_nt E v p
  shl E v p := opStore E p v
  gather E m mo v p o := gather E m mo v p o
  scatter E mo v p o := scatter E mo v p o
  print := print

end LFA.SV.AvxInt32

namespace LFA.SV.Avx512Double8
/-- short_vec_avx512_double_8.hpp, if compiled for avx512f. -/
def impl : Impl 64 where
  N := 8
  V := V
  lanes := V.lanes
  bcast := bcast
  add E a b := some (opAdd E a b)
  sub E a b := some (opSub E a b)
  mul E a b := some (opMul E a b)
  div E a b := some (opDiv E a b)
  addA E a b := some (opAddAssign E a b)
  subA E a b := some (opSubAssign E a b)
  mulA E a b := some (opMulAssign E a b)
  divA E a b := some (opDivAssign E a b)
  sqrt E a := some (sqrtFn E a)
  sqrtM E a := some (sqrt E a)
  divSqrt E a b := some (opDiv E a (sqrtFn E b))
  divSqrtA E a b := some (opDivAssign E a (sqrtFn E b))
  load E m v p := load E m v p
  loadA E m v p := load_aligned E m v p
  ofPtr E m p := ofPtr E m p
  ofList E m p := ofList E m p
  store E v p := store E v p
  storeA E v p := store_aligned E v p
  storeNT E v p := store_nt E v p
  shl E v p := opStore E p v
  gather E m mo v p o := gather E m mo v p o
  scatter E mo v p o := scatter E mo v p o
  print := print

/-- Comparisons of short_vec_avx512_double_8.hpp. -/
def cmp : Cmp impl where
  M := BitVec 8
  kind := .bits 8
  lt E a b := some (opLt E a b)
  le E a b := some (opLe E a b)
  eq E a b := some (opEq E a b)
  gt E a b := some (opGt E a b)
  ge E a b := some (opGe E a b)
  blend := blend
  vany := any
  index E v i := some (opIndex E v i)

end LFA.SV.Avx512Double8

namespace LFA.SV.Avx512Double16
/-- short_vec_avx512_double_16.hpp, if compiled for avx512f. -/
def impl : Impl 64 where
  N := 16
  V := V
  lanes := V.lanes
  bcast := bcast
  add E a b := some (opAdd E a b)
  sub E a b := some (opSub E a b)
  mul E a b := some (opMul E a b)
  div E a b := some (opDiv E a b)
  addA E a b := some (opAddAssign E a b)
  subA E a b := some (opSubAssign E a b)
  mulA E a b := some (opMulAssign E a b)
  divA E a b := some (opDivAssign E a b)
  sqrt E a := some (sqrtFn E a)
  sqrtM E a := some (sqrt E a)
  divSqrt E a b := some (opDiv E a (sqrtFn E b))
  divSqrtA E a b := some (opDivAssign E a (sqrtFn E b))
  load E m v p := load E m v p
  loadA E m v p := load_aligned E m v p
  ofPtr E m p := ofPtr E m p
  ofList E m p := ofList E m p
  store E v p := store E v p
  storeA E v p := store_aligned E v p
  storeNT E v p := store_nt E v p
  shl E v p := opStore E p v
  gather E m mo v p o := gather E m mo v p o
  scatter E mo v p o := scatter E mo v p o
  print := print

/-- Comparisons of short_vec_avx512_double_16.hpp. -/
def cmp : Cmp impl where
  M := BitVec 16
  kind := .bits 16
  lt E a b := opLt E a b
  le E a b := opLe E a b
  eq E a b := opEq E a b
  gt E a b := opGt E a b
  ge E a b := opGe E a b
  blend := blend
  vany := any
  index E v i := opIndex E v i

end LFA.SV.Avx512Double16

namespace LFA.SV.Avx512Double32
/-- short_vec_avx512_double_32.hpp, if compiled for avx512f. -/
def impl : Impl 64 where
  N := 32
  V := V
  lanes := V.lanes
  bcast := bcast
  add E a b := some (opAdd E a b)
  sub E a b := some (opSub E a b)
  mul E a b := some (opMul E a b)
  div E a b := some (opDiv E a b)
  addA E a b := some (opAddAssign E a b)
  subA E a b := some (opSubAssign E a b)
  mulA E a b := some (opMulAssign E a b)
  divA E a b := some (opDivAssign E a b)
  sqrt E a := some (sqrtFn E a)
  sqrtM E a := some (sqrt E a)
  divSqrt E a b := some (opDiv E a (sqrtFn E b))
  divSqrtA E a b := some (opDivAssign E a (sqrtFn E b))
  load E m v p := load E m v p
  loadA E m v p := load_aligned E m v p
  ofPtr E m p := ofPtr E m p
  ofList E m p := ofList E m p
  store E v p := store E v p
  storeA E v p := store_aligned E v p
  storeNT E v p := store_nt E v p
  shl E v p := opStore E p v
  gather E m mo v p o := gather E m mo v p o
  scatter E mo v p o := scatter E mo v p o
  print := print

/-- Comparisons of short_vec_avx512_double_32.hpp. -/
def cmp : Cmp impl where
  M := BitVec 32
  kind := .bits 32
  lt E a b := opLt E a b
  le E a b := opLe E a b
  eq E a b := opEq E a b
  gt E a b := opGt E a b
  ge E a b := opGe E a b
  blend := blend
  vany := any
  index E v i := opIndex E v i

end LFA.SV.Avx512Double32

namespace LFA.SV.Avx512Float16
/-- short_vec_avx512_float_16.hpp, if compiled for avx512f. -/
def impl : Impl 32 where
  N := 16
  V := V
  lanes := V.lanes
  bcast := bcast
  add E a b := some (opAdd E a b)
  sub E a b := some (opSub E a b)
  mul E a b := some (opMul E a b)
  div E a b := some (opDiv E a b)
  addA E a b := some (opAddAssign E a b)
  subA E a b := some (opSubAssign E a b)
  mulA E a b := some (opMulAssign E a b)
  divA E a b := some (opDivAssign E a b)
  sqrt E a := some (ofSqrt E ⟨a⟩)
  sqrtM E a := some (sqrt E a)
  divSqrt E a b := some (opDivSqrt E a ⟨b⟩)
  divSqrtA E a b := some (opDivAssignSqrt E a ⟨b⟩)
  load E m v p := load E m v p
  loadA E m v p := load_aligned E m v p
  ofPtr E m p := ofPtr E m p
  ofList E m p := ofList E m p
  store E v p := store E v p
  storeA E v p := store_aligned E v p
  storeNT E v p := store_nt E v p
  shl E v p := opStore E p v
  gather E m mo v p o := gather E m mo v p o
  scatter E mo v p o := scatter E mo v p o
  print := print

/-- Comparisons of short_vec_avx512_float_16.hpp. -/
def cmp : Cmp impl where
  M := BitVec 16
  kind := .bits 16
  lt E a b := some (opLt E a b)
  le E a b := some (opLe E a b)
  eq E a b := some (opEq E a b)
  gt E a b := some (opGt E a b)
  ge E a b := some (opGe E a b)
  blend := blend
  vany := any
  index E v i := some (opIndex E v i)

end LFA.SV.Avx512Float16

namespace LFA.SV.Avx512Float32
/-- short_vec_avx512_float_32.hpp, if compiled for avx512f. -/
def impl : Impl 32 where
  N := 32
  V := V
  lanes := V.lanes
  bcast := bcast
  add E a b := some (opAdd E a b)
  sub E a b := some (opSub E a b)
  mul E a b := some (opMul E a b)
  div E a b := some (opDiv E a b)
  addA E a b := some (opAddAssign E a b)
  subA E a b := some (opSubAssign E a b)
  mulA E a b := some (opMulAssign E a b)
  divA E a b := some (opDivAssign E a b)
  sqrt E a := some (ofSqrt E ⟨a⟩)
  sqrtM E a := some (sqrt E a)
  divSqrt E a b := some (opDivSqrt E a ⟨b⟩)
  divSqrtA E a b := some (opDivAssignSqrt E a ⟨b⟩)
  load E m v p := load E m v p
  loadA E m v p := load_aligned E m v p
  ofPtr E m p := ofPtr E m p
  ofList E m p := ofList E m p
  store E v p := store E v p
  storeA E v p := store_aligned E v p
  storeNT E v p := store_nt E v p
  shl E v p := opStore E p v
  gather E m mo v p o := gather E m mo v p o
  scatter E mo v p o := scatter E mo v p o
  print := print

/-- Comparisons of short_vec_avx512_float_32.hpp. -/
def cmp : Cmp impl where
  M := BitVec 32
  kind := .bits 32
  lt E a b := opLt E a b
  le E a b := opLe E a b
  eq E a b := opEq E a b
  gt E a b := opGt E a b
  ge E a b := opGe E a b
  blend := blend
  vany := any
  index E v i := opIndex E v i

end LFA.SV.Avx512Float32

namespace LFA.SV.Avx512Int16
/-- short_vec_avx512_int_16.hpp, if compiled for avx512f. -/
def impl : Impl 32 where
  N := 16
  V := V
  lanes := V.lanes
  bcast := bcast
  add E a b := some (opAdd E a b)
  sub E a b := some (opSub E a b)
  mul E a b := some (opMul E a b)
  div E a b := some (opDiv E a b)
  addA E a b := some (opAddAssign E a b)
  subA E a b := some (opSubAssign E a b)
  mulA E a b := some (opMulAssign E a b)
  divA E a b := some (opDivAssign E a b)
  sqrt E a := some (ofSqrt E ⟨a⟩)
  sqrtM E a := some (sqrt E a)
  divSqrt E a b := some (opDivSqrt E a ⟨b⟩)
  divSqrtA E a b := some (opDivAssignSqrt E a ⟨b⟩)
  load E m v p := load E m v p
  loadA E m v p := load_aligned E m v p
  ofPtr E m p := ofPtr E m p
  ofList E m p := ofList E m p
  store E v p := store E v p
  storeA E v p := store_aligned E v p
  storeNT E v p := store_nt E v p
  shl E v p := opStore E p v
  gather E m mo v p o := gather E m mo v p o
  scatter E mo v p o := scatter E mo v p o
  print := print

end LFA.SV.Avx512Int16

namespace LFA.SV.Avx512Int32
/-- short_vec_avx512_int_32.hpp, if compiled for avx512f. -/
def impl : Impl 32 where
  N := 32
  V := V
  lanes := V.lanes
  bcast := bcast
  add E a b := some (opAdd E a b)
  sub E a b := some (opSub E a b)
  mul E a b := some (opMul E a b)
  div E a b := some (opDiv E a b)
  addA E a b := some (opAddAssign E a b)
  subA E a b := some (opSubAssign E a b)
  mulA E a b := some (opMulAssign E a b)
  divA E a b := some (opDivAssign E a b)
  sqrt E a := some (ofSqrt E ⟨a⟩)
  sqrtM E a := some (sqrt E a)
  divSqrt E a b := some (opDivSqrt E a ⟨b⟩)
  divSqrtA E a b := some (opDivAssignSqrt E a ⟨b⟩)
  load E m v p := load E m v p
  loadA E m v p := load_aligned E m v p
  ofPtr E m p := ofPtr E m p
  ofList E m p := ofList E m p
  store E v p := store E v p
  storeA E v p := store_aligned E v p
  storeNT E v p := store_nt E v p
  shl E v p := opStore E p v
  gather E m mo v p o := gather E m mo v p o
  scatter E mo v p o := scatter E mo v p o
  print := print

end LFA.SV.Avx512Int32

namespace LFA.SV.MicDouble8
/-- short_vec_mic_double_8.hpp, if compiled for mic. -/
def impl : Impl 64 where
  N := 8
  V := V
  lanes := V.lanes
  bcast := bcast
  add E a b := some (opAdd E a b)
  sub E a b := some (opSub E a b)
  mul E a b := some (opMul E a b)
  div E a b := some (opDiv E a b)
  addA E a b := some (opAddAssign E a b)
  subA E a b := some (opSubAssign E a b)
  mulA E a b := some (opMulAssign E a b)
  divA E a b := some (opDivAssign E a b)
  sqrt E a := some (sqrtFn E a)
  sqrtM E a := some (sqrt E a)
  divSqrt E a b := some (opDiv E a (sqrtFn E b))
  divSqrtA E a b := some (opDivAssign E a (sqrtFn E b))
  load E m v p := load E m v p
  loadA E m v p := load_aligned E m v p
  ofPtr E m p := ofPtr E m p
  ofList E m p := ofList E m p
  store E v p := store E v p
  storeA E v p := store_aligned E v p
  storeNT E v p := store_nt E v p
  shl E v p := opStore E p v
  gather E m mo v p o := gather E m mo v p o
  scatter E mo v p o := scatter E mo v p o
  print := print

end LFA.SV.MicDouble8

namespace LFA.SV.MicDouble16
/-- short_vec_mic_double_16.hpp, if compiled for mic. -/
def impl : Impl 64 where
  N := 16
  V := V
  lanes := V.lanes
  bcast := bcast
  add E a b := some (opAdd E a b)
  sub E a b := some (opSub E a b)
  mul E a b := some (opMul E a b)
  div E a b := some (opDiv E a b)
  addA E a b := some (opAddAssign E a b)
  subA E a b := some (opSubAssign E a b)
  mulA E a b := some (opMulAssign E a b)
  divA E a b := some (opDivAssign E a b)
  sqrt E a := some (sqrtFn E a)
  sqrtM E a := some (sqrt E a)
  divSqrt E a b := some (opDiv E a (sqrtFn E b))
  divSqrtA E a b := some (opDivAssign E a (sqrtFn E b))
  load E m v p := load E m v p
  loadA E m v p := load_aligned E m v p
  ofPtr E m p := ofPtr E m p
  ofList E m p := ofList E m p
  store E v p := store E v p
  storeA E v p := store_aligned E v p
  storeNT E v p := store_nt E v p
  shl E v p := opStore E p v
  gather E m mo v p o := gather E m mo v p o
  scatter E mo v p o := scatter E mo v p o
  print := print

end LFA.SV.MicDouble16

namespace LFA.SV.MicDouble32
/-- short_vec_mic_double_32.hpp, if compiled for mic. -/
def impl : Impl 64 where
  N := 32
  V := V
  lanes := V.lanes
  bcast := bcast
  add E a b := some (opAdd E a b)
  sub E a b := some (opSub E a b)
  mul E a b := some (opMul E a b)
  div E a b := some (opDiv E a b)
  addA E a b := some (opAddAssign E a b)
  subA E a b := some (opSubAssign E a b)
  mulA E a b := some (opMulAssign E a b)
  divA E a b := some (opDivAssign E a b)
  sqrt E a := some (sqrtFn E a)
  sqrtM E a := some (sqrt E a)
  divSqrt E a b := some (opDiv E a (sqrtFn E b))
  divSqrtA E a b := some (opDivAssign E a (sqrtFn E b))
  load E m v p := load E m v p
  loadA E m v p := load_aligned E m v p
  ofPtr E m p := ofPtr E m p
  ofList E m p := ofList E m p
  store E v p := store E v p
  storeA E v p := store_aligned E v p
  storeNT E v p := store_nt E v p
  shl E v p := opStore E p v
  gather E m mo v p o := gather E m mo v p o
  scatter E mo v p o := scatter E mo v p o
  print := print

end LFA.SV.MicDouble32

namespace LFA.SV.MicFloat16
/-- short_vec_mic_float_16.hpp, if compiled for mic. -/
def impl : Impl 32 where
  N := 16
  V := V
  lanes := V.lanes
  bcast := bcast
  add E a b := some (opAdd E a b)
  sub E a b := some (opSub E a b)
  mul E a b := some (opMul E a b)
  div E a b := some (opDiv E a b)
  addA E a b := some (opAddAssign E a b)
  subA E a b := some (opSubAssign E a b)
  mulA E a b := some (opMulAssign E a b)
  divA E a b := some (opDivAssign E a b)
  sqrt E a := some (ofSqrt E ⟨a⟩)
  sqrtM E a := some (sqrt E a)
  divSqrt E a b := some (opDivSqrt E a ⟨b⟩)
  divSqrtA E a b := some (opDivAssignSqrt E a ⟨b⟩)
  load E m v p := load E m v p
  loadA E m v p := load_aligned E m v p
  ofPtr E m p := ofPtr E m p
  ofList E m p := ofList E m p
  store E v p := store E v p
  storeA E v p := store_aligned E v p
  storeNT E v p := store_nt E v p
  shl E v p := opStore E p v
  gather E m mo v p o := gather E m mo v p o
  scatter E mo v p o := scatter E mo v p o
  print := print

end LFA.SV.MicFloat16

namespace LFA.SV.MicFloat32
/-- short_vec_mic_float_32.hpp, if compiled for mic. -/
def impl : Impl 32 where
  N := 32
  V := V
  lanes := V.lanes
  bcast := bcast
  add E a b := some (opAdd E a b)
  sub E a b := some (opSub E a b)
  mul E a b := some (opMul E a b)
  div E a b := some (opDiv E a b)
  addA E a b := some (opAddAssign E a b)
  subA E a b := some (opSubAssign E a b)
  mulA E a b := some (opMulAssign E a b)
  divA E a b := some (opDivAssign E a b)
  sqrt E a := some (ofSqrt E ⟨a⟩)
  sqrtM E a := some (sqrt E a)
  divSqrt E a b := some (opDivSqrt E a ⟨b⟩)
  divSqrtA E a b := some (opDivAssignSqrt E a ⟨b⟩)
  load E m v p := load E m v p
  loadA E m v p := load_aligned E m v p
  ofPtr E m p := ofPtr E m p
  ofList E m p := ofList E m p
  store E v p := store E v p
  storeA E v p := store_aligned E v p
  storeNT E v p := store_nt E v p
  shl E v p := opStore E p v
  gather E m mo v p o := gather E m mo v p o
  scatter E mo v p o := scatter E mo v p o
  print := print

end LFA.SV.MicFloat32

namespace LFA.SV.NeonFloat4
/-- short_vec_neon_float_4.hpp, if compiled for neon. -/
def impl_neon : Impl 32 where
  N := 4
  V := V
  lanes := V.lanes
  bcast := bcast
  add E a b := some (opAdd E a b)
  sub E a b := some (opSub E a b)
  mul E a b := some (opMul E a b)
  div E a b := some (opDiv_neon E a b)
  addA E a b := some (opAddAssign E a b)
  subA E a b := some (opSubAssign E a b)
  mulA E a b := some (opMulAssign E a b)
  divA E a b := some (opDivAssign_neon E a b)
  sqrt E a := some (sqrtFn_neon E a)
  sqrtM E a := some (sqrt_neon E a)
  divSqrt E a b := some (opDiv_neon E a (sqrtFn_neon E b))
  divSqrtA E a b := some (opDivAssign_neon E a (sqrtFn_neon E b))
  load E m v p := load E m v p
  loadA E m v p := load_aligned E m v p
  ofPtr E m p := ofPtr E m p
  ofList E m p := ofList E m p
  store E v p := store E v p
  storeA E v p := store_aligned E v p
  storeNT E v p := store_nt_neon E v p
  shl E v p := opStore E p v
  gather E m mo v p o := gather E m mo v p o
  scatter E mo v p o := scatter E mo v p o
  print := print

end LFA.SV.NeonFloat4

namespace LFA.SV.NeonFloat4
/-- short_vec_neon_float_4.hpp, if compiled for neon_lp64. -/
def impl_neon_lp64 : Impl 32 where
  N := 4
  V := V
  lanes := V.lanes
  bcast := bcast
  add E a b := some (opAdd E a b)
  sub E a b := some (opSub E a b)
  mul E a b := some (opMul E a b)
  div E a b := some (opDiv_neon E a b)
  addA E a b := some (opAddAssign E a b)
  subA E a b := some (opSubAssign E a b)
  mulA E a b := some (opMulAssign E a b)
  divA E a b := some (opDivAssign_neon E a b)
  sqrt E a := some (sqrtFn_neon E a)
  sqrtM E a := some (sqrt_neon E a)
  divSqrt E a b := some (opDiv_neon E a (sqrtFn_neon E b))
  divSqrtA E a b := some (opDivAssign_neon E a (sqrtFn_neon E b))
  load E m v p := load E m v p
  loadA E m v p := load_aligned E m v p
  ofPtr E m p := ofPtr E m p
  ofList E m p := ofList E m p
  store E v p := store E v p
  storeA E v p := store_aligned E v p
  storeNT E v p := store_nt_neon_lp64 E v p
  shl E v p := opStore E p v
  gather E m mo v p o := gather E m mo v p o
  scatter E mo v p o := scatter E mo v p o
  print := print

end LFA.SV.NeonFloat4

namespace LFA.SV.NeonFloat4
/-- short_vec_neon_float_4.hpp, if compiled for neon_prec. -/
def impl_neon_prec : Impl 32 where
  N := 4
  V := V
  lanes := V.lanes
  bcast := bcast
  add E a b := some (opAdd E a b)
  sub E a b := some (opSub E a b)
  mul E a b := some (opMul E a b)
  div E a b := some (opDiv_neon_prec E a b)
  addA E a b := some (opAddAssign E a b)
  subA E a b := some (opSubAssign E a b)
  mulA E a b := some (opMulAssign E a b)
  divA E a b := some (opDivAssign_neon_prec E a b)
  sqrt E a := some (sqrtFn_neon_prec E a)
  sqrtM E a := some (sqrt_neon_prec E a)
  divSqrt E a b := some (opDiv_neon_prec E a (sqrtFn_neon_prec E b))
  divSqrtA E a b := some (opDivAssign_neon_prec E a (sqrtFn_neon_prec E b))
  load E m v p := load E m v p
  loadA E m v p := load_aligned E m v p
  ofPtr E m p := ofPtr E m p
  ofList E m p := ofList E m p
  store E v p := store E v p
  storeA E v p := store_aligned E v p
  storeNT E v p := store_nt_neon E v p
  shl E v p := opStore E p v
  gather E m mo v p o := gather E m mo v p o
  scatter E mo v p o := scatter E mo v p o
  print := print

end LFA.SV.NeonFloat4

namespace LFA.SV.NeonFloat4
/-- short_vec_neon_float_4.hpp, if compiled for neon_prec_lp64. -/
def impl_neon_prec_lp64 : Impl 32 where
  N := 4
  V := V
  lanes := V.lanes
  bcast := bcast
  add E a b := some (opAdd E a b)
  sub E a b := some (opSub E a b)
  mul E a b := some (opMul E a b)
  div E a b := some (opDiv_neon_prec E a b)
  addA E a b := some (opAddAssign E a b)
  subA E a b := some (opSubAssign E a b)
  mulA E a b := some (opMulAssign E a b)
  divA E a b := some (opDivAssign_neon_prec E a b)
  sqrt E a := some (sqrtFn_neon_prec E a)
  sqrtM E a := some (sqrt_neon_prec E a)
  divSqrt E a b := some (opDiv_neon_prec E a (sqrtFn_neon_prec E b))
  divSqrtA E a b := some (opDivAssign_neon_prec E a (sqrtFn_neon_prec E b))
  load E m v p := load E m v p
  loadA E m v p := load_aligned E m v p
  ofPtr E m p := ofPtr E m p
  ofList E m p := ofList E m p
  store E v p := store E v p
  storeA E v p := store_aligned E v p
  storeNT E v p := store_nt_neon_lp64 E v p
  shl E v p := opStore E p v
  gather E m mo v p o := gather E m mo v p o
  scatter E mo v p o := scatter E mo v p o
  print := print

end LFA.SV.NeonFloat4

namespace LFA.SV.NeonFloat8
/-- short_vec_neon_float_8.hpp, if compiled for neon. -/
def impl_neon : Impl 32 where
  N := 8
  V := V
  lanes := V.lanes
  bcast := bcast
  add E a b := some (opAdd E a b)
  sub E a b := some (opSub E a b)
  mul E a b := some (opMul E a b)
  div E a b := some (opDiv_neon E a b)
  addA E a b := some (opAddAssign E a b)
  subA E a b := some (opSubAssign E a b)
  mulA E a b := some (opMulAssign E a b)
  divA E a b := some (opDivAssign_neon E a b)
  sqrt E a := some (sqrtFn_neon E a)
  sqrtM E a := some (sqrt_neon E a)
  divSqrt E a b := some (opDiv_neon E a (sqrtFn_neon E b))
  divSqrtA E a b := some (opDivAssign_neon E a (sqrtFn_neon E b))
  load E m v p := load E m v p
  loadA E m v p := load_aligned E m v p
  ofPtr E m p := ofPtr E m p
  ofList E m p := ofList E m p
  store E v p := store E v p
  storeA E v p := store_aligned E v p
  storeNT E v p := store_nt_neon E v p
  shl E v p := opStore E p v
  gather E m mo v p o := gather E m mo v p o
  scatter E mo v p o := scatter E mo v p o
  print := print

end LFA.SV.NeonFloat8

namespace LFA.SV.NeonFloat8
/-- short_vec_neon_float_8.hpp, if compiled for neon_lp64. -/
def impl_neon_lp64 : Impl 32 where
  N := 8
  V := V
  lanes := V.lanes
  bcast := bcast
  add E a b := some (opAdd E a b)
  sub E a b := some (opSub E a b)
  mul E a b := some (opMul E a b)
  div E a b := some (opDiv_neon E a b)
  addA E a b := some (opAddAssign E a b)
  subA E a b := some (opSubAssign E a b)
  mulA E a b := some (opMulAssign E a b)
  divA E a b := some (opDivAssign_neon E a b)
  sqrt E a := some (sqrtFn_neon E a)
  sqrtM E a := some (sqrt_neon E a)
  divSqrt E a b := some (opDiv_neon E a (sqrtFn_neon E b))
  divSqrtA E a b := some (opDivAssign_neon E a (sqrtFn_neon E b))
  load E m v p := load E m v p
  loadA E m v p := load_aligned E m v p
  ofPtr E m p := ofPtr E m p
  ofList E m p := ofList E m p
  store E v p := store E v p
  storeA E v p := store_aligned E v p
  storeNT E v p := store_nt_neon_lp64 E v p
  shl E v p := opStore E p v
  gather E m mo v p o := gather E m mo v p o
  scatter E mo v p o := scatter E mo v p o
  print := print

end LFA.SV.NeonFloat8

namespace LFA.SV.NeonFloat8
/-- short_vec_neon_float_8.hpp, if compiled for neon_prec. -/
def impl_neon_prec : Impl 32 where
  N := 8
  V := V
  lanes := V.lanes
  bcast := bcast
  add E a b := some (opAdd E a b)
  sub E a b := some (opSub E a b)
  mul E a b := some (opMul E a b)
  div E a b := some (opDiv_neon_prec E a b)
  addA E a b := some (opAddAssign E a b)
  subA E a b := some (opSubAssign E a b)
  mulA E a b := some (opMulAssign E a b)
  divA E a b := some (opDivAssign_neon_prec E a b)
  sqrt E a := some (sqrtFn_neon_prec E a)
  sqrtM E a := some (sqrt_neon_prec E a)
  divSqrt E a b := some (opDiv_neon_prec E a (sqrtFn_neon_prec E b))
  divSqrtA E a b := some (opDivAssign_neon_prec E a (sqrtFn_neon_prec E b))
  load E m v p := load E m v p
  loadA E m v p := load_aligned E m v p
  ofPtr E m p := ofPtr E m p
  ofList E m p := ofList E m p
  store E v p := store E v p
  storeA E v p := store_aligned E v p
  storeNT E v p := store_nt_neon E v p
  shl E v p := opStore E p v
  gather E m mo v p o := gather E m mo v p o
  scatter E mo v p o := scatter E mo v p o
  print := print

end LFA.SV.NeonFloat8

namespace LFA.SV.NeonFloat8
/-- short_vec_neon_float_8.hpp, if compiled for neon_prec_lp64. -/
def impl_neon_prec_lp64 : Impl 32 where
  N := 8
  V := V
  lanes := V.lanes
  bcast := bcast
  add E a b := some (opAdd E a b)
  sub E a b := some (opSub E a b)
  mul E a b := some (opMul E a b)
  div E a b := some (opDiv_neon_prec E a b)
  addA E a b := some (opAddAssign E a b)
  subA E a b := some (opSubAssign E a b)
  mulA E a b := some (opMulAssign E a b)
  divA E a b := some (opDivAssign_neon_prec E a b)
  sqrt E a := some (sqrtFn_neon_prec E a)
  sqrtM E a := some (sqrt_neon_prec E a)
  divSqrt E a b := some (opDiv_neon_prec E a (sqrtFn_neon_prec E b))
  divSqrtA E a b := some (opDivAssign_neon_prec E a (sqrtFn_neon_prec E b))
  load E m v p := load E m v p
  loadA E m v p := load_aligned E m v p
  ofPtr E m p := ofPtr E m p
  ofList E m p := ofList E m p
  store E v p := store E v p
  storeA E v p := store_aligned E v p
  storeNT E v p := store_nt_neon_lp64 E v p
  shl E v p := opStore E p v
  gather E m mo v p o := gather E m mo v p o
  scatter E mo v p o := scatter E mo v p o
  print := print

end LFA.SV.NeonFloat8

namespace LFA.SV.NeonFloat16
/-- short_vec_neon_float_16.hpp, if compiled for neon. -/
def impl_neon : Impl 32 where
  N := 16
  V := V
  lanes := V.lanes
  bcast := bcast
  add E a b := some (opAdd E a b)
  sub E a b := some (opSub E a b)
  mul E a b := some (opMul E a b)
  div E a b := some (opDiv_neon E a b)
  addA E a b := some (opAddAssign E a b)
  subA E a b := some (opSubAssign E a b)
  mulA E a b := some (opMulAssign E a b)
  divA E a b := some (opDivAssign_neon E a b)
  sqrt E a := some (sqrtFn_neon E a)
  sqrtM E a := some (sqrt_neon E a)
  divSqrt E a b := some (opDiv_neon E a (sqrtFn_neon E b))
  divSqrtA E a b := some (opDivAssign_neon E a (sqrtFn_neon E b))
  load E m v p := load E m v p
  loadA E m v p := load_aligned E m v p
  ofPtr E m p := ofPtr E m p
  ofList E m p := ofList E m p
  store E v p := store E v p
  storeA E v p := store_aligned E v p
  storeNT E v p := store_nt_neon E v p
  shl E v p := opStore E p v
  gather E m mo v p o := gather E m mo v p o
  scatter E mo v p o := scatter E mo v p o
  print := print

end LFA.SV.NeonFloat16

namespace LFA.SV.NeonFloat16
/-- short_vec_neon_float_16.hpp, if compiled for neon_lp64. -/
def impl_neon_lp64 : Impl 32 where
  N := 16
  V := V
  lanes := V.lanes
  bcast := bcast
  add E a b := some (opAdd E a b)
  sub E a b := some (opSub E a b)
  mul E a b := some (opMul E a b)
  div E a b := some (opDiv_neon E a b)
  addA E a b := some (opAddAssign E a b)
  subA E a b := some (opSubAssign E a b)
  mulA E a b := some (opMulAssign E a b)
  divA E a b := some (opDivAssign_neon E a b)
  sqrt E a := some (sqrtFn_neon E a)
  sqrtM E a := some (sqrt_neon E a)
  divSqrt E a b := some (opDiv_neon E a (sqrtFn_neon E b))
  divSqrtA E a b := some (opDivAssign_neon E a (sqrtFn_neon E b))
  load E m v p := load E m v p
  loadA E m v p := load_aligned E m v p
  ofPtr E m p := ofPtr E m p
  ofList E m p := ofList E m p
  store E v p := store E v p
  storeA E v p := store_aligned E v p
  storeNT E v p := store_nt_neon_lp64 E v p
  shl E v p := opStore E p v
  gather E m mo v p o := gather E m mo v p o
  scatter E mo v p o := scatter E mo v p o
  print := print

end LFA.SV.NeonFloat16

namespace LFA.SV.NeonFloat16
/-- short_vec_neon_float_16.hpp, if compiled for neon_prec. -/
def impl_neon_prec : Impl 32 where
  N := 16
  V := V
  lanes := V.lanes
  bcast := bcast
  add E a b := some (opAdd E a b)
  sub E a b := some (opSub E a b)
  mul E a b := some (opMul E a b)
  div E a b := some (opDiv_neon_prec E a b)
  addA E a b := some (opAddAssign E a b)
  subA E a b := some (opSubAssign E a b)
  mulA E a b := some (opMulAssign E a b)
  divA E a b := some (opDivAssign_neon_prec E a b)
  sqrt E a := some (sqrtFn_neon_prec E a)
  sqrtM E a := some (sqrt_neon_prec E a)
  divSqrt E a b := some (opDiv_neon_prec E a (sqrtFn_neon_prec E b))
  divSqrtA E a b := some (opDivAssign_neon_prec E a (sqrtFn_neon_prec E b))
  load E m v p := load E m v p
  loadA E m v p := load_aligned E m v p
  ofPtr E m p := ofPtr E m p
  ofList E m p := ofList E m p
  store E v p := store E v p
  storeA E v p := store_aligned E v p
  storeNT E v p := store_nt_neon E v p
  shl E v p := opStore E p v
  gather E m mo v p o := gather E m mo v p o
  scatter E mo v p o := scatter E mo v p o
  print := print

end LFA.SV.NeonFloat16

namespace LFA.SV.NeonFloat16
/-- short_vec_neon_float_16.hpp, if compiled for neon_prec_lp64. -/
def impl_neon_prec_lp64 : Impl 32 where
  N := 16
  V := V
  lanes := V.lanes
  bcast := bcast
  add E a b := some (opAdd E a b)
  sub E a b := some (opSub E a b)
  mul E a b := some (opMul E a b)
  div E a b := some (opDiv_neon_prec E a b)
  addA E a b := some (opAddAssign E a b)
  subA E a b := some (opSubAssign E a b)
  mulA E a b := some (opMulAssign E a b)
  divA E a b := some (opDivAssign_neon_prec E a b)
  sqrt E a := some (sqrtFn_neon_prec E a)
  sqrtM E a := some (sqrt_neon_prec E a)
  divSqrt E a b := some (opDiv_neon_prec E a (sqrtFn_neon_prec E b))
  divSqrtA E a b := some (opDivAssign_neon_prec E a (sqrtFn_neon_prec E b))
  load E m v p := load E m v p
  loadA E m v p := load_aligned E m v p
  ofPtr E m p := ofPtr E m p
  ofList E m p := ofList E m p
  store E v p := store E v p
  storeA E v p := store_aligned E v p
  storeNT E v p := store_nt_neon_lp64 E v p
  shl E v p := opStore E p v
  gather E m mo v p o := gather E m mo v p o
  scatter E mo v p o := scatter E mo v p o
  print := print

end LFA.SV.NeonFloat16

namespace LFA.SV.NeonFloat32
/-- short_vec_neon_float_32.hpp, if compiled for neon. -/
def impl_neon : Impl 32 where
  N := 32
  V := V
  lanes := V.lanes
  bcast := bcast
  add E a b := some (opAdd E a b)
  sub E a b := some (opSub E a b)
  mul E a b := some (opMul E a b)
  div E a b := some (opDiv_neon E a b)
  addA E a b := some (opAddAssign E a b)
  subA E a b := some (opSubAssign E a b)
  mulA E a b := some (opMulAssign E a b)
  divA E a b := some (opDivAssign_neon E a b)
  sqrt E a := some (sqrtFn_neon E a)
  sqrtM E a := some (sqrt_neon E a)
  divSqrt E a b := some (opDiv_neon E a (sqrtFn_neon E b))
  divSqrtA E a b := some (opDivAssign_neon E a (sqrtFn_neon E b))
  load E m v p := load E m v p
  loadA E m v p := load_aligned E m v p
  ofPtr E m p := ofPtr E m p
  ofList E m p := ofList E m p
  store E v p := store E v p
  storeA E v p := store_aligned E v p
  storeNT E v p := store_nt_neon E v p
  shl E v p := opStore E p v
  gather E m mo v p o := gather E m mo v p o
  scatter E mo v p o := scatter E mo v p o
  print := print

end LFA.SV.NeonFloat32

namespace LFA.SV.NeonFloat32
/-- short_vec_neon_float_32.hpp, if compiled for neon_lp64. -/
def impl_neon_lp64 : Impl 32 where
  N := 32
  V := V
  lanes := V.lanes
  bcast := bcast
  add E a b := some (opAdd E a b)
  sub E a b := some (opSub E a b)
  mul E a b := some (opMul E a b)
  div E a b := some (opDiv_neon E a b)
  addA E a b := some (opAddAssign E a b)
  subA E a b := some (opSubAssign E a b)
  mulA E a b := some (opMulAssign E a b)
  divA E a b := some (opDivAssign_neon E a b)
  sqrt E a := some (sqrtFn_neon E a)
  sqrtM E a := some (sqrt_neon E a)
  divSqrt E a b := some (opDiv_neon E a (sqrtFn_neon E b))
  divSqrtA E a b := some (opDivAssign_neon E a (sqrtFn_neon E b))
  load E m v p := load E m v p
  loadA E m v p := load_aligned E m v p
  ofPtr E m p := ofPtr E m p
  ofList E m p := ofList E m p
  store E v p := store E v p
  storeA E v p := store_aligned E v p
  storeNT E v p := store_nt_neon_lp64 E v p
  shl E v p := opStore E p v
  gather E m mo v p o := gather E m mo v p o
  scatter E mo v p o := scatter E mo v p o
  print := print

end LFA.SV.NeonFloat32

namespace LFA.SV.NeonFloat32
/-- short_vec_neon_float_32.hpp, if compiled for neon_prec. -/
def impl_neon_prec : Impl 32 where
  N := 32
  V := V
  lanes := V.lanes
  bcast := bcast
  add E a b := some (opAdd E a b)
  sub E a b := some (opSub E a b)
  mul E a b := some (opMul E a b)
  div E a b := some (opDiv_neon_prec E a b)
  addA E a b := some (opAddAssign E a b)
  subA E a b := some (opSubAssign E a b)
  mulA E a b := some (opMulAssign E a b)
  divA E a b := some (opDivAssign_neon_prec E a b)
  sqrt E a := some (sqrtFn_neon_prec E a)
  sqrtM E a := some (sqrt_neon_prec E a)
  divSqrt E a b := some (opDiv_neon_prec E a (sqrtFn_neon_prec E b))
  divSqrtA E a b := some (opDivAssign_neon_prec E a (sqrtFn_neon_prec E b))
  load E m v p := load E m v p
  loadA E m v p := load_aligned E m v p
  ofPtr E m p := ofPtr E m p
  ofList E m p := ofList E m p
  store E v p := store E v p
  storeA E v p := store_aligned E v p
  storeNT E v p := store_nt_neon E v p
  shl E v p := opStore E p v
  gather E m mo v p o := gather E m mo v p o
  scatter E mo v p o := scatter E mo v p o
  print := print

end LFA.SV.NeonFloat32

namespace LFA.SV.NeonFloat32
/-- short_vec_neon_float_32.hpp, if compiled for neon_prec_lp64. -/
def impl_neon_prec_lp64 : Impl 32 where
  N := 32
  V := V
  lanes := V.lanes
  bcast := bcast
  add E a b := some (opAdd E a b)
  sub E a b := some (opSub E a b)
  mul E a b := some (opMul E a b)
  div E a b := some (opDiv_neon_prec E a b)
  addA E a b := some (opAddAssign E a b)
  subA E a b := some (opSubAssign E a b)
  mulA E a b := some (opMulAssign E a b)
  divA E a b := some (opDivAssign_neon_prec E a b)
  sqrt E a := some (sqrtFn_neon_prec E a)
  sqrtM E a := some (sqrt_neon_prec E a)
  divSqrt E a b := some (opDiv_neon_prec E a (sqrtFn_neon_prec E b))
  divSqrtA E a b := some (opDivAssign_neon_prec E a (sqrtFn_neon_prec E b))
  load E m v p := load E m v p
  loadA E m v p := load_aligned E m v p
  ofPtr E m p := ofPtr E m p
  ofList E m p := ofList E m p
  store E v p := store E v p
  storeA E v p := store_aligned E v p
  storeNT E v p := store_nt_neon_lp64 E v p
  shl E v p := opStore E p v
  gather E m mo v p o := gather E m mo v p o
  scatter E mo v p o := scatter E mo v p o
  print := print

end LFA.SV.NeonFloat32

namespace LFA.SV.QpxDouble4
/-- short_vec_qpx_double_4.hpp, if compiled for qpx. -/
def impl : Impl 64 where
  N := 4
  V := V
  lanes := V.lanes
  bcast := bcast
  add E a b := some (opAdd E a b)
  sub E a b := some (opSub E a b)
  mul E a b := some (opMul E a b)
  div E a b := some (opDiv E a b)
  addA E a b := some (opAddAssign E a b)
  subA E a b := some (opSubAssign E a b)
  mulA E a b := some (opMulAssign E a b)
  divA E a b := some (opDivAssign E a b)
  sqrt E a := some (ofSqrt E ⟨a⟩)
  sqrtM E a := some (sqrt E a)
  divSqrt E a b := some (opDivSqrt E a ⟨b⟩)
  divSqrtA E a b := some (opDivAssignSqrt E a ⟨b⟩)
  load E m v p := load E m v p
  loadA E m v p := load_aligned E m v p
  ofPtr E m p := ofPtr E m p
  ofList E m p := ofList E m p
  store E v p := store E v p
  storeA E v p := store_aligned E v p
  storeNT E v p := store_nt E v p
  shl E v p := opStore E p v
  gather E m mo v p o := gather E m mo v p o
  scatter E mo v p o := scatter E mo v p o
  print := print

end LFA.SV.QpxDouble4

namespace LFA.SV.QpxDouble8
/-- short_vec_qpx_double_8.hpp, if compiled for qpx. -/
def impl : Impl 64 where
  N := 8
  V := V
  lanes := V.lanes
  bcast := bcast
  add E a b := some (opAdd E a b)
  sub E a b := some (opSub E a b)
  mul E a b := some (opMul E a b)
  div E a b := some (opDiv E a b)
  addA E a b := some (opAddAssign E a b)
  subA E a b := some (opSubAssign E a b)
  mulA E a b := some (opMulAssign E a b)
  divA E a b := some (opDivAssign E a b)
  sqrt E a := some (ofSqrt E ⟨a⟩)
  sqrtM E a := some (sqrt E a)
  divSqrt E a b := some (opDivSqrt E a ⟨b⟩)
  divSqrtA E a b := some (opDivAssignSqrt E a ⟨b⟩)
  load E m v p := load E m v p
  loadA E m v p := load_aligned E m v p
  ofPtr E m p := ofPtr E m p
  ofList E m p := ofList E m p
  store E v p := store E v p
  storeA E v p := store_aligned E v p
  storeNT E v p := store_nt E v p
  shl E v p := opStore E p v
  gather E m mo v p o := gather E m mo v p o
  scatter E mo v p o := scatter E mo v p o
  print := print

end LFA.SV.QpxDouble8

namespace LFA.SV.QpxDouble16
/-- short_vec_qpx_double_16.hpp, if compiled for qpx. -/
def impl : Impl 64 where
  N := 16
  V := V
  lanes := V.lanes
  bcast := bcast
  add E a b := some (opAdd E a b)
  sub E a b := some (opSub E a b)
  mul E a b := some (opMul E a b)
  div E a b := some (opDiv E a b)
  addA E a b := some (opAddAssign E a b)
  subA E a b := some (opSubAssign E a b)
  mulA E a b := some (opMulAssign E a b)
  divA E a b := some (opDivAssign E a b)
  sqrt E a := some (ofSqrt E ⟨a⟩)
  sqrtM E a := some (sqrt E a)
  divSqrt E a b := some (opDivSqrt E a ⟨b⟩)
  divSqrtA E a b := some (opDivAssignSqrt E a ⟨b⟩)
  load E m v p := load E m v p
  loadA E m v p := load_aligned E m v p
  ofPtr E m p := ofPtr E m p
  ofList E m p := ofList E m p
  store E v p := store E v p
  storeA E v p := store_aligned E v p
  storeNT E v p := store_nt E v p
  shl E v p := opStore E p v
  gather E m mo v p o := gather E m mo v p o
  scatter E mo v p o := scatter E mo v p o
  print := print

end LFA.SV.QpxDouble16

namespace LFA.SV.QpxDouble32
/-- short_vec_qpx_double_32.hpp, if compiled for qpx. -/
def impl : Impl 64 where
  N := 32
  V := V
  lanes := V.lanes
  bcast := bcast
  add E a b := some (opAdd E a b)
  sub E a b := some (opSub E a b)
  mul E a b := some (opMul E a b)
  div E a b := some (opDiv E a b)
  addA E a b := some (opAddAssign E a b)
  subA E a b := some (opSubAssign E a b)
  mulA E a b := some (opMulAssign E a b)
  divA E a b := some (opDivAssign E a b)
  sqrt E a := some (ofSqrt E ⟨a⟩)
  sqrtM E a := some (sqrt E a)
  divSqrt E a b := some (opDivSqrt E a ⟨b⟩)
  divSqrtA E a b := some (opDivAssignSqrt E a ⟨b⟩)
  load E m v p := load E m v p
  loadA E m v p := load_aligned E m v p
  ofPtr E m p := ofPtr E m p
  ofList E m p := ofList E m p
  store E v p := store E v p
  storeA E v p := store_aligned E v p
  storeNT E v p := store_nt E v p
  shl E v p := opStore E p v
  gather E m mo v p o := gather E m mo v p o
  scatter E mo v p o := scatter E mo v p o
  print := print

end LFA.SV.QpxDouble32

namespace LFA.SV.ScalarDouble1
/-- short_vec_scalar_double_1.hpp, if compiled for scalar, qpx, neon, neon_lp64, neon_prec, neon_prec_lp64, mic, avx512f, avx, avx2, sse, sse2, sse41. -/
def impl : Impl 64 where
  N := 1
  V := V
  lanes := V.lanes
  bcast := bcast
  add E a b := some (opAdd E a b)
  sub E a b := some (opSub E a b)
  mul E a b := some (opMul E a b)
  div E a b := some (opDiv E a b)
  addA E a b := some (opAddAssign E a b)
  subA E a b := some (opSubAssign E a b)
  mulA E a b := some (opMulAssign E a b)
  divA E a b := some (opDivAssign E a b)
  sqrt E a := some (sqrtFn E a)
  sqrtM E a := some (sqrt E a)
  divSqrt E a b := some (opDiv E a (sqrtFn E b))
  divSqrtA E a b := some (opDivAssign E a (sqrtFn E b))
  load E m v p := load E m v p
  loadA E m v p := load_aligned E m v p
  ofPtr E m p := ofPtr E m p
  ofList E m p := ofList E m p
  store E v p := store E v p
  storeA E v p := store_aligned E v p
  storeNT E v p := store_nt E v p
  shl E v p := opStore E p v
  gather E m mo v p o := gather E m mo v p o
  scatter E mo v p o := scatter E mo v p o
  print := print

/-- Comparisons of short_vec_scalar_double_1.hpp. -/
def cmp : Cmp impl where
  M := BitVec 8
  kind := .bits 8
  lt E a b := some (opLt E a b)
  le E a b := some (opLe E a b)
  eq E a b := some (opEq E a b)
  gt E a b := some (opGt E a b)
  ge E a b := some (opGe E a b)
  blend := blend
  vany := any
  index E v i := some (opIndex E v i)

end LFA.SV.ScalarDouble1

namespace LFA.SV.ScalarDouble2
/-- short_vec_scalar_double_2.hpp, if compiled for scalar, qpx, neon, neon_lp64, neon_prec, neon_prec_lp64, mic. -/
def impl : Impl 64 where
  N := 2
  V := V
  lanes := V.lanes
  bcast := bcast
  add E a b := some (opAdd E a b)
  sub E a b := some (opSub E a b)
  mul E a b := some (opMul E a b)
  div E a b := some (opDiv E a b)
  addA E a b := some (opAddAssign E a b)
  subA E a b := some (opSubAssign E a b)
  mulA E a b := some (opMulAssign E a b)
  divA E a b := some (opDivAssign E a b)
  sqrt E a := some (sqrtFn E a)
  sqrtM E a := some (sqrt E a)
  divSqrt E a b := some (opDiv E a (sqrtFn E b))
  divSqrtA E a b := some (opDivAssign E a (sqrtFn E b))
  load E m v p := load E m v p
  loadA E m v p := load_aligned E m v p
  ofPtr E m p := ofPtr E m p
  ofList E m p := ofList E m p
  store E v p := store E v p
  storeA E v p := store_aligned E v p
  storeNT E v p := store_nt E v p
  shl E v p := opStore E p v
  gather E m mo v p o := gather E m mo v p o
  scatter E mo v p o := scatter E mo v p o
  print := print

/-- Comparisons of short_vec_scalar_double_2.hpp. -/
def cmp : Cmp impl where
  M := BitVec 8
  kind := .bits 8
  lt E a b := opLt E a b
  le E a b := opLe E a b
  eq E a b := opEq E a b
  gt E a b := opGt E a b
  ge E a b := opGe E a b
  blend := blend
  vany := any
  index E v i := opIndex E v i

end LFA.SV.ScalarDouble2

namespace LFA.SV.ScalarDouble4
/-- short_vec_scalar_double_4.hpp, if compiled for scalar, neon, neon_lp64, neon_prec, neon_prec_lp64, mic. -/
def impl : Impl 64 where
  N := 4
  V := V
  lanes := V.lanes
  bcast := bcast
  add E a b := some (opAdd E a b)
  sub E a b := some (opSub E a b)
  mul E a b := some (opMul E a b)
  div E a b := some (opDiv E a b)
  addA E a b := some (opAddAssign E a b)
  subA E a b := some (opSubAssign E a b)
  mulA E a b := some (opMulAssign E a b)
  divA E a b := some (opDivAssign E a b)
  sqrt E a := some (sqrtFn E a)
  sqrtM E a := some (sqrt E a)
  divSqrt E a b := some (opDiv E a (sqrtFn E b))
  divSqrtA E a b := some (opDivAssign E a (sqrtFn E b))
  load E m v p := load E m v p
  loadA E m v p := load_aligned E m v p
  ofPtr E m p := ofPtr E m p
  ofList E m p := ofList E m p
  store E v p := store E v p
  storeA E v p := store_aligned E v p
  storeNT E v p := store_nt E v p
  shl E v p := opStore E p v
  gather E m mo v p o := gather E m mo v p o
  scatter E mo v p o := scatter E mo v p o
  print := print

/-- Comparisons of short_vec_scalar_double_4.hpp. -/
def cmp : Cmp impl where
  M := BitVec 8
  kind := .bits 8
  lt E a b := opLt E a b
  le E a b := opLe E a b
  eq E a b := opEq E a b
  gt E a b := opGt E a b
  ge E a b := opGe E a b
  blend := blend
  vany := any
  index E v i := opIndex E v i

end LFA.SV.ScalarDouble4

namespace LFA.SV.ScalarDouble8
/-- short_vec_scalar_double_8.hpp, if compiled for scalar, neon, neon_lp64, neon_prec, neon_prec_lp64. -/
def impl : Impl 64 where
  N := 8
  V := V
  lanes := V.lanes
  bcast := bcast
  add E a b := some (opAdd E a b)
  sub E a b := some (opSub E a b)
  mul E a b := some (opMul E a b)
  div E a b := some (opDiv E a b)
  addA E a b := some (opAddAssign E a b)
  subA E a b := some (opSubAssign E a b)
  mulA E a b := some (opMulAssign E a b)
  divA E a b := some (opDivAssign E a b)
  sqrt E a := some (sqrtFn E a)
  sqrtM E a := some (sqrt E a)
  divSqrt E a b := some (opDiv E a (sqrtFn E b))
  divSqrtA E a b := some (opDivAssign E a (sqrtFn E b))
  load E m v p := load E m v p
  loadA E m v p := load_aligned E m v p
  ofPtr E m p := ofPtr E m p
  ofList E m p := ofList E m p
  store E v p := store E v p
  storeA E v p := store_aligned E v p
  storeNT E v p := store_nt E v p
  shl E v p := opStore E p v
  gather E m mo v p o := gather E m mo v p o
  scatter E mo v p o := scatter E mo v p o
  print := print

/-- Comparisons of short_vec_scalar_double_8.hpp. -/
def cmp : Cmp impl where
  M := BitVec 8
  kind := .bits 8
  lt E a b := opLt E a b
  le E a b := opLe E a b
  eq E a b := opEq E a b
  gt E a b := opGt E a b
  ge E a b := opGe E a b
  blend := blend
  vany := any
  index E v i := opIndex E v i

end LFA.SV.ScalarDouble8

namespace LFA.SV.ScalarDouble16
/-- short_vec_scalar_double_16.hpp, if compiled for scalar, neon, neon_lp64, neon_prec, neon_prec_lp64. -/
def impl : Impl 64 where
  N := 16
  V := V
  lanes := V.lanes
  bcast := bcast
  add E a b := some (opAdd E a b)
  sub E a b := some (opSub E a b)
  mul E a b := some (opMul E a b)
  div E a b := some (opDiv E a b)
  addA E a b := some (opAddAssign E a b)
  subA E a b := some (opSubAssign E a b)
  mulA E a b := some (opMulAssign E a b)
  divA E a b := some (opDivAssign E a b)
  sqrt E a := some (sqrtFn E a)
  sqrtM E a := some (sqrt E a)
  divSqrt E a b := some (opDiv E a (sqrtFn E b))
  divSqrtA E a b := some (opDivAssign E a (sqrtFn E b))
  load E m v p := load E m v p
  loadA E m v p := load_aligned E m v p
  ofPtr E m p := ofPtr E m p
  ofList E m p := ofList E m p
  store E v p := store E v p
  storeA E v p := store_aligned E v p
  storeNT E v p := store_nt E v p
  shl E v p := opStore E p v
  gather E m mo v p o := gather E m mo v p o
  scatter E mo v p o := scatter E mo v p o
  print := print

/-- Comparisons of short_vec_scalar_double_16.hpp. -/
def cmp : Cmp impl where
  M := BitVec 16
  kind := .bits 16
  lt E a b := opLt E a b
  le E a b := opLe E a b
  eq E a b := opEq E a b
  gt E a b := opGt E a b
  ge E a b := opGe E a b
  blend := blend
  vany := any
  index E v i := opIndex E v i

end LFA.SV.ScalarDouble16

namespace LFA.SV.ScalarDouble32
/-- short_vec_scalar_double_32.hpp, if compiled for scalar, neon, neon_lp64, neon_prec, neon_prec_lp64. -/
def impl : Impl 64 where
  N := 32
  V := V
  lanes := V.lanes
  bcast := bcast
  add E a b := some (opAdd E a b)
  sub E a b := some (opSub E a b)
  mul E a b := some (opMul E a b)
  div E a b := some (opDiv E a b)
  addA E a b := some (opAddAssign E a b)
  subA E a b := some (opSubAssign E a b)
  mulA E a b := some (opMulAssign E a b)
  divA E a b := some (opDivAssign E a b)
  sqrt E a := some (sqrtFn E a)
  sqrtM E a := some (sqrt E a)
  divSqrt E a b := some (opDiv E a (sqrtFn E b))
  divSqrtA E a b := some (opDivAssign E a (sqrtFn E b))
  load E m v p := load E m v p
  loadA E m v p := load_aligned E m v p
  ofPtr E m p := ofPtr E m p
  ofList E m p := ofList E m p
  store E v p := store E v p
  storeA E v p := store_aligned E v p
  storeNT E v p := store_nt E v p
  shl E v p := opStore E p v
  gather E m mo v p o := gather E m mo v p o
  scatter E mo v p o := scatter E mo v p o
  print := print

/-- Comparisons of short_vec_scalar_double_32.hpp. -/
def cmp : Cmp impl where
  M := BitVec 32
  kind := .bits 32
  lt E a b := opLt E a b
  le E a b := opLe E a b
  eq E a b := opEq E a b
  gt E a b := opGt E a b
  ge E a b := opGe E a b
  blend := blend
  vany := any
  index E v i := opIndex E v i

end LFA.SV.ScalarDouble32

namespace LFA.SV.ScalarFloat1
/-- short_vec_scalar_float_1.hpp, if compiled for scalar, qpx, neon, neon_lp64, neon_prec, neon_prec_lp64, mic, avx512f, avx, avx2, sse, sse2, sse41. -/
def impl : Impl 32 where
  N := 1
  V := V
  lanes := V.lanes
  bcast := bcast
  add E a b := some (opAdd E a b)
  sub E a b := some (opSub E a b)
  mul E a b := some (opMul E a b)
  div E a b := some (opDiv E a b)
  addA E a b := some (opAddAssign E a b)
  subA E a b := some (opSubAssign E a b)
  mulA E a b := some (opMulAssign E a b)
  divA E a b := some (opDivAssign E a b)
  sqrt E a := some (sqrtFn E a)
  sqrtM E a := some (sqrt E a)
  divSqrt E a b := some (opDiv E a (sqrtFn E b))
  divSqrtA E a b := some (opDivAssign E a (sqrtFn E b))
  load E m v p := load E m v p
  loadA E m v p := load_aligned E m v p
  ofPtr E m p := ofPtr E m p
  ofList E m p := ofList E m p
  store E v p := store E v p
  storeA E v p := store_aligned E v p
  storeNT E v p := store_nt E v p
  shl E v p := opStore E p v
  gather E m mo v p o := gather E m mo v p o
  scatter E mo v p o := scatter E mo v p o
  print := print

/-- Comparisons of short_vec_scalar_float_1.hpp. -/
def cmp : Cmp impl where
  M := BitVec 8
  kind := .bits 8
  lt E a b := some (opLt E a b)
  le E a b := some (opLe E a b)
  eq E a b := some (opEq E a b)
  gt E a b := some (opGt E a b)
  ge E a b := some (opGe E a b)
  blend := blend
  vany := any
  index E v i := some (opIndex E v i)

end LFA.SV.ScalarFloat1

namespace LFA.SV.ScalarFloat2
/-- short_vec_scalar_float_2.hpp, if compiled for scalar, qpx, neon, neon_lp64, neon_prec, neon_prec_lp64, mic, avx512f, avx, avx2, sse, sse2, sse41. -/
def impl : Impl 32 where
  N := 2
  V := V
  lanes := V.lanes
  bcast := bcast
  add E a b := some (opAdd E a b)
  sub E a b := some (opSub E a b)
  mul E a b := some (opMul E a b)
  div E a b := some (opDiv E a b)
  addA E a b := some (opAddAssign E a b)
  subA E a b := some (opSubAssign E a b)
  mulA E a b := some (opMulAssign E a b)
  divA E a b := some (opDivAssign E a b)
  sqrt E a := some (sqrtFn E a)
  sqrtM E a := some (sqrt E a)
  divSqrt E a b := some (opDiv E a (sqrtFn E b))
  divSqrtA E a b := some (opDivAssign E a (sqrtFn E b))
  load E m v p := load E m v p
  loadA E m v p := load_aligned E m v p
  ofPtr E m p := ofPtr E m p
  ofList E m p := ofList E m p
  store E v p := store E v p
  storeA E v p := store_aligned E v p
  storeNT E v p := store_nt E v p
  shl E v p := opStore E p v
  gather E m mo v p o := gather E m mo v p o
  scatter E mo v p o := scatter E mo v p o
  print := print

/-- Comparisons of short_vec_scalar_float_2.hpp. -/
def cmp : Cmp impl where
  M := BitVec 8
  kind := .bits 8
  lt E a b := opLt E a b
  le E a b := opLe E a b
  eq E a b := opEq E a b
  gt E a b := opGt E a b
  ge E a b := opGe E a b
  blend := blend
  vany := any
  index E v i := opIndex E v i

end LFA.SV.ScalarFloat2

namespace LFA.SV.ScalarFloat4
/-- short_vec_scalar_float_4.hpp, if compiled for scalar, qpx, mic. -/
def impl : Impl 32 where
  N := 4
  V := V
  lanes := V.lanes
  bcast := bcast
  add E a b := some (opAdd E a b)
  sub E a b := some (opSub E a b)
  mul E a b := some (opMul E a b)
  div E a b := some (opDiv E a b)
  addA E a b := some (opAddAssign E a b)
  subA E a b := some (opSubAssign E a b)
  mulA E a b := some (opMulAssign E a b)
  divA E a b := some (opDivAssign E a b)
  sqrt E a := some (sqrtFn E a)
  sqrtM E a := some (sqrt E a)
  divSqrt E a b := some (opDiv E a (sqrtFn E b))
  divSqrtA E a b := some (opDivAssign E a (sqrtFn E b))
  load E m v p := load E m v p
  loadA E m v p := load_aligned E m v p
  ofPtr E m p := ofPtr E m p
  ofList E m p := ofList E m p
  store E v p := store E v p
  storeA E v p := store_aligned E v p
  storeNT E v p := store_nt E v p
  shl E v p := opStore E p v
  gather E m mo v p o := gather E m mo v p o
  scatter E mo v p o := scatter E mo v p o
  print := print

/-- Comparisons of short_vec_scalar_float_4.hpp. -/
def cmp : Cmp impl where
  M := BitVec 8
  kind := .bits 8
  lt E a b := opLt E a b
  le E a b := opLe E a b
  eq E a b := opEq E a b
  gt E a b := opGt E a b
  ge E a b := opGe E a b
  blend := blend
  vany := any
  index E v i := opIndex E v i

end LFA.SV.ScalarFloat4

namespace LFA.SV.ScalarFloat8
/-- short_vec_scalar_float_8.hpp, if compiled for scalar, qpx, mic. -/
def impl : Impl 32 where
  N := 8
  V := V
  lanes := V.lanes
  bcast := bcast
  add E a b := some (opAdd E a b)
  sub E a b := some (opSub E a b)
  mul E a b := some (opMul E a b)
  div E a b := some (opDiv E a b)
  addA E a b := some (opAddAssign E a b)
  subA E a b := some (opSubAssign E a b)
  mulA E a b := some (opMulAssign E a b)
  divA E a b := some (opDivAssign E a b)
  sqrt E a := some (sqrtFn E a)
  sqrtM E a := some (sqrt E a)
  divSqrt E a b := some (opDiv E a (sqrtFn E b))
  divSqrtA E a b := some (opDivAssign E a (sqrtFn E b))
  load E m v p := load E m v p
  loadA E m v p := load_aligned E m v p
  ofPtr E m p := ofPtr E m p
  ofList E m p := ofList E m p
  store E v p := store E v p
  storeA E v p := store_aligned E v p
  storeNT E v p := store_nt E v p
  shl E v p := opStore E p v
  gather E m mo v p o := gather E m mo v p o
  scatter E mo v p o := scatter E mo v p o
  print := print

/-- Comparisons of short_vec_scalar_float_8.hpp. -/
def cmp : Cmp impl where
  M := BitVec 8
  kind := .bits 8
  lt E a b := opLt E a b
  le E a b := opLe E a b
  eq E a b := opEq E a b
  gt E a b := opGt E a b
  ge E a b := opGe E a b
  blend := blend
  vany := any
  index E v i := opIndex E v i

end LFA.SV.ScalarFloat8

namespace LFA.SV.ScalarFloat16
/-- short_vec_scalar_float_16.hpp, if compiled for scalar, qpx. -/
def impl : Impl 32 where
  N := 16
  V := V
  lanes := V.lanes
  bcast := bcast
  add E a b := some (opAdd E a b)
  sub E a b := some (opSub E a b)
  mul E a b := some (opMul E a b)
  div E a b := some (opDiv E a b)
  addA E a b := some (opAddAssign E a b)
  subA E a b := some (opSubAssign E a b)
  mulA E a b := some (opMulAssign E a b)
  divA E a b := some (opDivAssign E a b)
  sqrt E a := some (sqrtFn E a)
  sqrtM E a := some (sqrt E a)
  divSqrt E a b := some (opDiv E a (sqrtFn E b))
  divSqrtA E a b := some (opDivAssign E a (sqrtFn E b))
  load E m v p := load E m v p
  loadA E m v p := load_aligned E m v p
  ofPtr E m p := ofPtr E m p
  ofList E m p := ofList E m p
  store E v p := store E v p
  storeA E v p := store_aligned E v p
  storeNT E v p := store_nt E v p
  shl E v p := opStore E p v
  gather E m mo v p o := gather E m mo v p o
  scatter E mo v p o := scatter E mo v p o
  print := print

/-- Comparisons of short_vec_scalar_float_16.hpp. -/
def cmp : Cmp impl where
  M := BitVec 16
  kind := .bits 16
  lt E a b := opLt E a b
  le E a b := opLe E a b
  eq E a b := opEq E a b
  gt E a b := opGt E a b
  ge E a b := opGe E a b
  blend := blend
  vany := any
  index E v i := opIndex E v i

end LFA.SV.ScalarFloat16

namespace LFA.SV.ScalarFloat32
/-- short_vec_scalar_float_32.hpp, if compiled for scalar. -/
def impl : Impl 32 where
  N := 32
  V := V
  lanes := V.lanes
  bcast := bcast
  add E a b := some (opAdd E a b)
  sub E a b := some (opSub E a b)
  mul E a b := some (opMul E a b)
  div E a b := some (opDiv E a b)
  addA E a b := some (opAddAssign E a b)
  subA E a b := some (opSubAssign E a b)
  mulA E a b := some (opMulAssign E a b)
  divA E a b := some (opDivAssign E a b)
  sqrt E a := some (sqrtFn E a)
  sqrtM E a := some (sqrt E a)
  divSqrt E a b := some (opDiv E a (sqrtFn E b))
  divSqrtA E a b := some (opDivAssign E a (sqrtFn E b))
  load E m v p := load E m v p
  loadA E m v p := load_aligned E m v p
  ofPtr E m p := ofPtr E m p
  ofList E m p := ofList E m p
  store E v p := store E v p
  storeA E v p := store_aligned E v p
  storeNT E v p := store_nt E v p
  shl E v p := opStore E p v
  gather E m mo v p o := gather E m mo v p o
  scatter E mo v p o := scatter E mo v p o
  print := print

/-- Comparisons of short_vec_scalar_float_32.hpp. -/
def cmp : Cmp impl where
  M := BitVec 32
  kind := .bits 32
  lt E a b := opLt E a b
  le E a b := opLe E a b
  eq E a b := opEq E a b
  gt E a b := opGt E a b
  ge E a b := opGe E a b
  blend := blend
  vany := any
  index E v i := opIndex E v i

end LFA.SV.ScalarFloat32

namespace LFA.SV.ScalarInt1
/-- short_vec_scalar_int_1.hpp, if compiled for scalar, qpx, neon, neon_lp64, neon_prec, neon_prec_lp64, mic, avx512f, avx, avx2, sse, sse2, sse41. -/
def impl : Impl 32 where
  N := 1
  V := V
  lanes := V.lanes
  bcast := bcast
  add E a b := opAdd E a b
  sub E a b := opSub E a b
  mul E a b := opMul E a b
  div E a b := opDiv E a b
  addA E a b := opAddAssign E a b
  subA E a b := opSubAssign E a b
  mulA E a b := opMulAssign E a b
  divA E a b := opDivAssign E a b
  sqrt E a := some (sqrtFn E a)
  sqrtM E a := some (sqrt E a)
  divSqrt E a b := opDiv E a (sqrtFn E b)
  divSqrtA E a b := opDivAssign E a (sqrtFn E b)
  load E m v p := load E m v p
  loadA E m v p := load_aligned E m v p
  ofPtr E m p := ofPtr E m p
  ofList E m p := ofList E m p
  store E v p := store E v p
  storeA E v p := store_aligned E v p
  storeNT E v p := store_nt E v p
  shl E v p := opStore E p v
  gather E m mo v p o := gather E m mo v p o
  scatter E mo v p o := scatter E mo v p o
  print := print

end LFA.SV.ScalarInt1

namespace LFA.SV.ScalarInt2
/-- short_vec_scalar_int_2.hpp, if compiled for scalar, qpx, neon, neon_lp64, neon_prec, neon_prec_lp64, mic, avx512f, avx, avx2, sse, sse2, sse41. -/
def impl : Impl 32 where
  N := 2
  V := V
  lanes := V.lanes
  bcast := bcast
  add E a b := opAdd E a b
  sub E a b := opSub E a b
  mul E a b := opMul E a b
  div E a b := opDiv E a b
  addA E a b := opAddAssign E a b
  subA E a b := opSubAssign E a b
  mulA E a b := opMulAssign E a b
  divA E a b := opDivAssign E a b
  sqrt E a := some (sqrtFn E a)
  sqrtM E a := some (sqrt E a)
  divSqrt E a b := opDiv E a (sqrtFn E b)
  divSqrtA E a b := opDivAssign E a (sqrtFn E b)
  load E m v p := load E m v p
  loadA E m v p := load_aligned E m v p
  ofPtr E m p := ofPtr E m p
  ofList E m p := ofList E m p
  store E v p := store E v p
  storeA E v p := store_aligned E v p
  storeNT E v p := store_nt E v p
  shl E v p := opStore E p v
  gather E m mo v p o := gather E m mo v p o
  scatter E mo v p o := scatter E mo v p o
  print := print

end LFA.SV.ScalarInt2

namespace LFA.SV.ScalarInt4
/-- short_vec_scalar_int_4.hpp, if compiled for scalar, qpx, neon, neon_lp64, neon_prec, neon_prec_lp64, mic. -/
def impl : Impl 32 where
  N := 4
  V := V
  lanes := V.lanes
  bcast := bcast
  add E a b := opAdd E a b
  sub E a b := opSub E a b
  mul E a b := opMul E a b
  div E a b := opDiv E a b
  addA E a b := opAddAssign E a b
  subA E a b := opSubAssign E a b
  mulA E a b := opMulAssign E a b
  divA E a b := opDivAssign E a b
  sqrt E a := some (sqrtFn E a)
  sqrtM E a := some (sqrt E a)
  divSqrt E a b := opDiv E a (sqrtFn E b)
  divSqrtA E a b := opDivAssign E a (sqrtFn E b)
  load E m v p := load E m v p
  loadA E m v p := load_aligned E m v p
  ofPtr E m p := ofPtr E m p
  ofList E m p := ofList E m p
  store E v p := store E v p
  storeA E v p := store_aligned E v p
  storeNT E v p := store_nt E v p
  shl E v p := opStore E p v
  gather E m mo v p o := gather E m mo v p o
  scatter E mo v p o := scatter E mo v p o
  print := print

end LFA.SV.ScalarInt4

namespace LFA.SV.ScalarInt8
/-- short_vec_scalar_int_8.hpp, if compiled for scalar, qpx, neon, neon_lp64, neon_prec, neon_prec_lp64, mic. -/
def impl : Impl 32 where
  N := 8
  V := V
  lanes := V.lanes
  bcast := bcast
  add E a b := opAdd E a b
  sub E a b := opSub E a b
  mul E a b := opMul E a b
  div E a b := opDiv E a b
  addA E a b := opAddAssign E a b
  subA E a b := opSubAssign E a b
  mulA E a b := opMulAssign E a b
  divA E a b := opDivAssign E a b
  sqrt E a := some (sqrtFn E a)
  sqrtM E a := some (sqrt E a)
  divSqrt E a b := opDiv E a (sqrtFn E b)
  divSqrtA E a b := opDivAssign E a (sqrtFn E b)
  load E m v p := load E m v p
  loadA E m v p := load_aligned E m v p
  ofPtr E m p := ofPtr E m p
  ofList E m p := ofList E m p
  store E v p := store E v p
  storeA E v p := store_aligned E v p
  storeNT E v p := store_nt E v p
  shl E v p := opStore E p v
  gather E m mo v p o := gather E m mo v p o
  scatter E mo v p o := scatter E mo v p o
  print := print

end LFA.SV.ScalarInt8

namespace LFA.SV.ScalarInt16
/-- short_vec_scalar_int_16.hpp, if compiled for scalar, qpx, neon, neon_lp64, neon_prec, neon_prec_lp64, mic. -/
def impl : Impl 32 where
  N := 16
  V := V
  lanes := V.lanes
  bcast := bcast
  add E a b := opAdd E a b
  sub E a b := opSub E a b
  mul E a b := opMul E a b
  div E a b := opDiv E a b
  addA E a b := opAddAssign E a b
  subA E a b := opSubAssign E a b
  mulA E a b := opMulAssign E a b
  divA E a b := opDivAssign E a b
  sqrt E a := some (sqrtFn E a)
  sqrtM E a := some (sqrt E a)
  divSqrt E a b := opDiv E a (sqrtFn E b)
  divSqrtA E a b := opDivAssign E a (sqrtFn E b)
  load E m v p := load E m v p
  loadA E m v p := load_aligned E m v p
  ofPtr E m p := ofPtr E m p
  ofList E m p := ofList E m p
  store E v p := store E v p
  storeA E v p := store_aligned E v p
  storeNT E v p := store_nt E v p
  shl E v p := opStore E p v
  gather E m mo v p o := gather E m mo v p o
  scatter E mo v p o := scatter E mo v p o
  print := print

end LFA.SV.ScalarInt16

namespace LFA.SV.ScalarInt32
/-- short_vec_scalar_int_32.hpp, if compiled for scalar, qpx, neon, neon_lp64, neon_prec, neon_prec_lp64, mic. -/
def impl : Impl 32 where
  N := 32
  V := V
  lanes := V.lanes
  bcast := bcast
  add E a b := opAdd E a b
  sub E a b := opSub E a b
  mul E a b := opMul E a b
  div E a b := opDiv E a b
  addA E a b := opAddAssign E a b
  subA E a b := opSubAssign E a b
  mulA E a b := opMulAssign E a b
  divA E a b := opDivAssign E a b
  sqrt E a := some (sqrtFn E a)
  sqrtM E a := some (sqrt E a)
  divSqrt E a b := opDiv E a (sqrtFn E b)
  divSqrtA E a b := opDivAssign E a (sqrtFn E b)
  load E m v p := load E m v p
  loadA E m v p := load_aligned E m v p
  ofPtr E m p := ofPtr E m p
  ofList E m p := ofList E m p
  store E v p := store E v p
  storeA E v p := store_aligned E v p
  storeNT E v p := store_nt E v p
  shl E v p := opStore E p v
  gather E m mo v p o := gather E m mo v p o
  scatter E mo v p o := scatter E mo v p o
  print := print

end LFA.SV.ScalarInt32

namespace LFA.SV.SseDouble2
/-- short_vec_sse_double_2.hpp, if compiled for avx512f, avx, avx2, sse41. -/
def impl_avx512f : Impl 64 where
  N := 2
  V := V
  lanes := V.lanes
  bcast := bcast
  add E a b := some (opAdd E a b)
  sub E a b := some (opSub E a b)
  mul E a b := some (opMul E a b)
  div E a b := some (opDiv E a b)
  addA E a b := some (opAddAssign E a b)
  subA E a b := some (opSubAssign E a b)
  mulA E a b := some (opMulAssign E a b)
  divA E a b := some (opDivAssign E a b)
  sqrt E a := some (sqrtFn E a)
  sqrtM E a := some (sqrt E a)
  divSqrt E a b := some (opDiv E a (sqrtFn E b))
  divSqrtA E a b := some (opDivAssign E a (sqrtFn E b))
  load E m v p := load E m v p
  loadA E m v p := load_aligned E m v p
  ofPtr E m p := ofPtr E m p
  ofList E m p := ofList E m p
  store E v p := store E v p
  storeA E v p := store_aligned E v p
  storeNT E v p := store_nt E v p
  shl E v p := opStore E p v
  gather E m mo v p o := gather E m mo v p o
  scatter E mo v p o := scatter E mo v p o
  print := print

/-- Comparisons of short_vec_sse_double_2.hpp. -/
def cmp_avx512f : Cmp impl_avx512f where
  M := V
  kind := .vec
  lt E a b := some (opLt E a b)
  le E a b := some (opLe E a b)
  eq E a b := some (opEq E a b)
  gt E a b := some (opGt E a b)
  ge E a b := some (opGe E a b)
  blend := blend_avx512f
  vany := any_avx512f
  index E v i := some (opIndex E v i)

end LFA.SV.SseDouble2

namespace LFA.SV.SseDouble2
/-- short_vec_sse_double_2.hpp, if compiled for sse, sse2. -/
def impl_sse : Impl 64 where
  N := 2
  V := V
  lanes := V.lanes
  bcast := bcast
  add E a b := some (opAdd E a b)
  sub E a b := some (opSub E a b)
  mul E a b := some (opMul E a b)
  div E a b := some (opDiv E a b)
  addA E a b := some (opAddAssign E a b)
  subA E a b := some (opSubAssign E a b)
  mulA E a b := some (opMulAssign E a b)
  divA E a b := some (opDivAssign E a b)
  sqrt E a := some (sqrtFn E a)
  sqrtM E a := some (sqrt E a)
  divSqrt E a b := some (opDiv E a (sqrtFn E b))
  divSqrtA E a b := some (opDivAssign E a (sqrtFn E b))
  load E m v p := load E m v p
  loadA E m v p := load_aligned E m v p
  ofPtr E m p := ofPtr E m p
  ofList E m p := ofList E m p
  store E v p := store E v p
  storeA E v p := store_aligned E v p
  storeNT E v p := store_nt E v p
  shl E v p := opStore E p v
  gather E m mo v p o := gather E m mo v p o
  scatter E mo v p o := scatter E mo v p o
  print := print

/-- Comparisons of short_vec_sse_double_2.hpp. -/
def cmp_sse : Cmp impl_sse where
  M := V
  kind := .vec
  lt E a b := some (opLt E a b)
  le E a b := some (opLe E a b)
  eq E a b := some (opEq E a b)
  gt E a b := some (opGt E a b)
  ge E a b := some (opGe E a b)
  blend := blend_sse
  vany := any_sse
  index E v i := some (opIndex E v i)

end LFA.SV.SseDouble2

namespace LFA.SV.SseDouble4
/-- short_vec_sse_double_4.hpp, if compiled for sse, sse2. -/
def impl_sse : Impl 64 where
  N := 4
  V := V
  lanes := V.lanes
  bcast := bcast
  add E a b := some (opAdd E a b)
  sub E a b := some (opSub E a b)
  mul E a b := some (opMul E a b)
  div E a b := some (opDiv E a b)
  addA E a b := some (opAddAssign E a b)
  subA E a b := some (opSubAssign E a b)
  mulA E a b := some (opMulAssign E a b)
  divA E a b := some (opDivAssign E a b)
  sqrt E a := some (sqrtFn E a)
  sqrtM E a := some (sqrt E a)
  divSqrt E a b := some (opDiv E a (sqrtFn E b))
  divSqrtA E a b := some (opDivAssign E a (sqrtFn E b))
  load E m v p := load E m v p
  loadA E m v p := load_aligned E m v p
  ofPtr E m p := ofPtr E m p
  ofList E m p := ofList E m p
  store E v p := store E v p
  storeA E v p := store_aligned E v p
  storeNT E v p := store_nt E v p
  shl E v p := opStore E p v
  gather E m mo v p o := gather E m mo v p o
  scatter E mo v p o := scatter E mo v p o
  print := print

/-- Comparisons of short_vec_sse_double_4.hpp. -/
def cmp_sse : Cmp impl_sse where
  M := V
  kind := .vec
  lt E a b := some (opLt E a b)
  le E a b := some (opLe E a b)
  eq E a b := some (opEq E a b)
  gt E a b := some (opGt E a b)
  ge E a b := some (opGe E a b)
  blend := blend_sse
  vany := any_sse
  index E v i := opIndex E v i

end LFA.SV.SseDouble4

namespace LFA.SV.SseDouble4
/-- short_vec_sse_double_4.hpp, if compiled for sse41. -/
def impl_sse41 : Impl 64 where
  N := 4
  V := V
  lanes := V.lanes
  bcast := bcast
  add E a b := some (opAdd E a b)
  sub E a b := some (opSub E a b)
  mul E a b := some (opMul E a b)
  div E a b := some (opDiv E a b)
  addA E a b := some (opAddAssign E a b)
  subA E a b := some (opSubAssign E a b)
  mulA E a b := some (opMulAssign E a b)
  divA E a b := some (opDivAssign E a b)
  sqrt E a := some (sqrtFn E a)
  sqrtM E a := some (sqrt E a)
  divSqrt E a b := some (opDiv E a (sqrtFn E b))
  divSqrtA E a b := some (opDivAssign E a (sqrtFn E b))
  load E m v p := load E m v p
  loadA E m v p := load_aligned E m v p
  ofPtr E m p := ofPtr E m p
  ofList E m p := ofList E m p
  store E v p := store E v p
  storeA E v p := store_aligned E v p
  storeNT E v p := store_nt E v p
  shl E v p := opStore E p v
  gather E m mo v p o := gather E m mo v p o
  scatter E mo v p o := scatter E mo v p o
  print := print

/-- Comparisons of short_vec_sse_double_4.hpp. -/
def cmp_sse41 : Cmp impl_sse41 where
  M := V
  kind := .vec
  lt E a b := some (opLt E a b)
  le E a b := some (opLe E a b)
  eq E a b := some (opEq E a b)
  gt E a b := some (opGt E a b)
  ge E a b := some (opGe E a b)
  blend := blend_sse41
  vany := any_sse41
  index E v i := opIndex E v i

end LFA.SV.SseDouble4

namespace LFA.SV.SseDouble8
/-- short_vec_sse_double_8.hpp, if compiled for sse, sse2. -/
def impl_sse : Impl 64 where
  N := 8
  V := V
  lanes := V.lanes
  bcast := bcast
  add E a b := some (opAdd E a b)
  sub E a b := some (opSub E a b)
  mul E a b := some (opMul E a b)
  div E a b := some (opDiv E a b)
  addA E a b := some (opAddAssign E a b)
  subA E a b := some (opSubAssign E a b)
  mulA E a b := some (opMulAssign E a b)
  divA E a b := some (opDivAssign E a b)
  sqrt E a := some (sqrtFn E a)
  sqrtM E a := some (sqrt E a)
  divSqrt E a b := some (opDiv E a (sqrtFn E b))
  divSqrtA E a b := some (opDivAssign E a (sqrtFn E b))
  load E m v p := load E m v p
  loadA E m v p := load_aligned E m v p
  ofPtr E m p := ofPtr E m p
  ofList E m p := ofList E m p
  store E v p := store E v p
  storeA E v p := store_aligned E v p
  storeNT E v p := store_nt E v p
  shl E v p := opStore E p v
  gather E m mo v p o := gather E m mo v p o
  scatter E mo v p o := scatter E mo v p o
  print := print

/-- Comparisons of short_vec_sse_double_8.hpp. -/
def cmp_sse : Cmp impl_sse where
  M := V
  kind := .vec
  lt E a b := some (opLt E a b)
  le E a b := some (opLe E a b)
  eq E a b := some (opEq E a b)
  gt E a b := some (opGt E a b)
  ge E a b := some (opGe E a b)
  blend := blend_sse
  vany := any_sse
  index E v i := opIndex E v i

end LFA.SV.SseDouble8

namespace LFA.SV.SseDouble8
/-- short_vec_sse_double_8.hpp, if compiled for sse41. -/
def impl_sse41 : Impl 64 where
  N := 8
  V := V
  lanes := V.lanes
  bcast := bcast
  add E a b := some (opAdd E a b)
  sub E a b := some (opSub E a b)
  mul E a b := some (opMul E a b)
  div E a b := some (opDiv E a b)
  addA E a b := some (opAddAssign E a b)
  subA E a b := some (opSubAssign E a b)
  mulA E a b := some (opMulAssign E a b)
  divA E a b := some (opDivAssign E a b)
  sqrt E a := some (sqrtFn E a)
  sqrtM E a := some (sqrt E a)
  divSqrt E a b := some (opDiv E a (sqrtFn E b))
  divSqrtA E a b := some (opDivAssign E a (sqrtFn E b))
  load E m v p := load E m v p
  loadA E m v p := load_aligned E m v p
  ofPtr E m p := ofPtr E m p
  ofList E m p := ofList E m p
  store E v p := store E v p
  storeA E v p := store_aligned E v p
  storeNT E v p := store_nt E v p
  shl E v p := opStore E p v
  gather E m mo v p o := gather E m mo v p o
  scatter E mo v p o := scatter E mo v p o
  print := print

/-- Comparisons of short_vec_sse_double_8.hpp. -/
def cmp_sse41 : Cmp impl_sse41 where
  M := V
  kind := .vec
  lt E a b := some (opLt E a b)
  le E a b := some (opLe E a b)
  eq E a b := some (opEq E a b)
  gt E a b := some (opGt E a b)
  ge E a b := some (opGe E a b)
  blend := blend_sse41
  vany := any_sse41
  index E v i := opIndex E v i

end LFA.SV.SseDouble8

namespace LFA.SV.SseDouble16
/-- short_vec_sse_double_16.hpp, if compiled for sse, sse2. -/
def impl_sse : Impl 64 where
  N := 16
  V := V
  lanes := V.lanes
  bcast := bcast
  add E a b := some (opAdd E a b)
  sub E a b := some (opSub E a b)
  mul E a b := some (opMul E a b)
  div E a b := some (opDiv E a b)
  addA E a b := some (opAddAssign E a b)
  subA E a b := some (opSubAssign E a b)
  mulA E a b := some (opMulAssign E a b)
  divA E a b := some (opDivAssign E a b)
  sqrt E a := some (sqrtFn E a)
  sqrtM E a := some (sqrt E a)
  divSqrt E a b := some (opDiv E a (sqrtFn E b))
  divSqrtA E a b := some (opDivAssign E a (sqrtFn E b))
  load E m v p := load E m v p
  loadA E m v p := load_aligned E m v p
  ofPtr E m p := ofPtr E m p
  ofList E m p := ofList E m p
  store E v p := store E v p
  storeA E v p := store_aligned E v p
  storeNT E v p := store_nt E v p
  shl E v p := opStore E p v
  gather E m mo v p o := gather E m mo v p o
  scatter E mo v p o := scatter E mo v p o
  print := print

/-- Comparisons of short_vec_sse_double_16.hpp. -/
def cmp_sse : Cmp impl_sse where
  M := V
  kind := .vec
  lt E a b := some (opLt E a b)
  le E a b := some (opLe E a b)
  eq E a b := some (opEq E a b)
  gt E a b := some (opGt E a b)
  ge E a b := some (opGe E a b)
  blend := blend_sse
  vany := any_sse
  index E v i := opIndex E v i

end LFA.SV.SseDouble16

namespace LFA.SV.SseDouble16
/-- short_vec_sse_double_16.hpp, if compiled for sse41. -/
def impl_sse41 : Impl 64 where
  N := 16
  V := V
  lanes := V.lanes
  bcast := bcast
  add E a b := some (opAdd E a b)
  sub E a b := some (opSub E a b)
  mul E a b := some (opMul E a b)
  div E a b := some (opDiv E a b)
  addA E a b := some (opAddAssign E a b)
  subA E a b := some (opSubAssign E a b)
  mulA E a b := some (opMulAssign E a b)
  divA E a b := some (opDivAssign E a b)
  sqrt E a := some (sqrtFn E a)
  sqrtM E a := some (sqrt E a)
  divSqrt E a b := some (opDiv E a (sqrtFn E b))
  divSqrtA E a b := some (opDivAssign E a (sqrtFn E b))
  load E m v p := load E m v p
  loadA E m v p := load_aligned E m v p
  ofPtr E m p := ofPtr E m p
  ofList E m p := ofList E m p
  store E v p := store E v p
  storeA E v p := store_aligned E v p
  storeNT E v p := store_nt E v p
  shl E v p := opStore E p v
  gather E m mo v p o := gather E m mo v p o
  scatter E mo v p o := scatter E mo v p o
  print := print

/-- Comparisons of short_vec_sse_double_16.hpp. -/
def cmp_sse41 : Cmp impl_sse41 where
  M := V
  kind := .vec
  lt E a b := some (opLt E a b)
  le E a b := some (opLe E a b)
  eq E a b := some (opEq E a b)
  gt E a b := some (opGt E a b)
  ge E a b := some (opGe E a b)
  blend := blend_sse41
  vany := any_sse41
  index E v i := opIndex E v i

end LFA.SV.SseDouble16

namespace LFA.SV.SseDouble32
/-- short_vec_sse_double_32.hpp, if compiled for sse, sse2. -/
def impl_sse : Impl 64 where
  N := 32
  V := V
  lanes := V.lanes
  bcast := bcast
  add E a b := some (opAdd E a b)
  sub E a b := some (opSub E a b)
  mul E a b := some (opMul E a b)
  div E a b := some (opDiv E a b)
  addA E a b := some (opAddAssign E a b)
  subA E a b := some (opSubAssign E a b)
  mulA E a b := some (opMulAssign E a b)
  divA E a b := some (opDivAssign E a b)
  sqrt E a := some (sqrtFn E a)
  sqrtM E a := some (sqrt E a)
  divSqrt E a b := some (opDiv E a (sqrtFn E b))
  divSqrtA E a b := some (opDivAssign E a (sqrtFn E b))
  load E m v p := load E m v p
  loadA E m v p := load_aligned E m v p
  ofPtr E m p := ofPtr E m p
  ofList E m p := ofList E m p
  store E v p := store E v p
  storeA E v p := store_aligned E v p
  storeNT E v p := store_nt E v p
  shl E v p := opStore E p v
  gather E m mo v p o := gather E m mo v p o
  scatter E mo v p o := scatter E mo v p o
  print := print

/-- Comparisons of short_vec_sse_double_32.hpp. -/
def cmp_sse : Cmp impl_sse where
  M := V
  kind := .vec
  lt E a b := some (opLt E a b)
  le E a b := some (opLe E a b)
  eq E a b := some (opEq E a b)
  gt E a b := some (opGt E a b)
  ge E a b := some (opGe E a b)
  blend := blend_sse
  vany := any_sse
  index E v i := opIndex E v i

end LFA.SV.SseDouble32

namespace LFA.SV.SseDouble32
/-- short_vec_sse_double_32.hpp, if compiled for sse41. -/
def impl_sse41 : Impl 64 where
  N := 32
  V := V
  lanes := V.lanes
  bcast := bcast
  add E a b := some (opAdd E a b)
  sub E a b := some (opSub E a b)
  mul E a b := some (opMul E a b)
  div E a b := some (opDiv E a b)
  addA E a b := some (opAddAssign E a b)
  subA E a b := some (opSubAssign E a b)
  mulA E a b := some (opMulAssign E a b)
  divA E a b := some (opDivAssign E a b)
  sqrt E a := some (sqrtFn E a)
  sqrtM E a := some (sqrt E a)
  divSqrt E a b := some (opDiv E a (sqrtFn E b))
  divSqrtA E a b := some (opDivAssign E a (sqrtFn E b))
  load E m v p := load E m v p
  loadA E m v p := load_aligned E m v p
  ofPtr E m p := ofPtr E m p
  ofList E m p := ofList E m p
  store E v p := store E v p
  storeA E v p := store_aligned E v p
  storeNT E v p := store_nt E v p
  shl E v p := opStore E p v
  gather E m mo v p o := gather E m mo v p o
  scatter E mo v p o := scatter E mo v p o
  print := print

/-- Comparisons of short_vec_sse_double_32.hpp. -/
def cmp_sse41 : Cmp impl_sse41 where
  M := V
  kind := .vec
  lt E a b := some (opLt E a b)
  le E a b := some (opLe E a b)
  eq E a b := some (opEq E a b)
  gt E a b := some (opGt E a b)
  ge E a b := some (opGe E a b)
  blend := blend_sse41
  vany := any_sse41
  index E v i := opIndex E v i

end LFA.SV.SseDouble32

namespace LFA.SV.SseFloat4
/-- short_vec_sse_float_4.hpp, if compiled for avx512f, avx, avx2, sse41. -/
def impl_avx512f : Impl 32 where
  N := 4
  V := V
  lanes := V.lanes
  bcast := bcast
  add E a b := some (opAdd E a b)
  sub E a b := some (opSub E a b)
  mul E a b := some (opMul E a b)
  div E a b := some (opDiv E a b)
  addA E a b := some (opAddAssign E a b)
  subA E a b := some (opSubAssign E a b)
  mulA E a b := some (opMulAssign E a b)
  divA E a b := some (opDivAssign E a b)
  sqrt E a := some (ofSqrt E ⟨a⟩)
  sqrtM E a := some (sqrt E a)
  divSqrt E a b := some (opDivSqrt E a ⟨b⟩)
  divSqrtA E a b := some (opDivAssignSqrt E a ⟨b⟩)
  load E m v p := load E m v p
  loadA E m v p := load_aligned E m v p
  ofPtr E m p := ofPtr E m p
  ofList E m p := ofList E m p
  store E v p := store E v p
  storeA E v p := store_aligned E v p
  storeNT E v p := store_nt E v p
  shl E v p := opStore E p v
  gather E m mo v p o := gather_avx512f E m mo v p o
  scatter E mo v p o := scatter_avx512f E mo v p o
  print := print

/-- Comparisons of short_vec_sse_float_4.hpp. -/
def cmp_avx512f : Cmp impl_avx512f where
  M := V
  kind := .vec
  lt E a b := some (opLt E a b)
  le E a b := some (opLe E a b)
  eq E a b := some (opEq E a b)
  gt E a b := some (opGt E a b)
  ge E a b := some (opGe E a b)
  blend := blend_avx512f
  vany := any_avx512f
  index E v i := some (opIndex E v i)

end LFA.SV.SseFloat4

namespace LFA.SV.SseFloat4
/-- short_vec_sse_float_4.hpp, if compiled for sse, sse2. -/
def impl_sse : Impl 32 where
  N := 4
  V := V
  lanes := V.lanes
  bcast := bcast
  add E a b := some (opAdd E a b)
  sub E a b := some (opSub E a b)
  mul E a b := some (opMul E a b)
  div E a b := some (opDiv E a b)
  addA E a b := some (opAddAssign E a b)
  subA E a b := some (opSubAssign E a b)
  mulA E a b := some (opMulAssign E a b)
  divA E a b := some (opDivAssign E a b)
  sqrt E a := some (ofSqrt E ⟨a⟩)
  sqrtM E a := some (sqrt E a)
  divSqrt E a b := some (opDivSqrt E a ⟨b⟩)
  divSqrtA E a b := some (opDivAssignSqrt E a ⟨b⟩)
  load E m v p := load E m v p
  loadA E m v p := load_aligned E m v p
  ofPtr E m p := ofPtr E m p
  ofList E m p := ofList E m p
  store E v p := store E v p
  storeA E v p := store_aligned E v p
  storeNT E v p := store_nt E v p
  shl E v p := opStore E p v
  gather E m mo v p o := gather_sse E m mo v p o
  scatter E mo v p o := scatter_sse E mo v p o
  print := print

/-- Comparisons of short_vec_sse_float_4.hpp. -/
def cmp_sse : Cmp impl_sse where
  M := V
  kind := .vec
  lt E a b := some (opLt E a b)
  le E a b := some (opLe E a b)
  eq E a b := some (opEq E a b)
  gt E a b := some (opGt E a b)
  ge E a b := some (opGe E a b)
  blend := blend_sse
  vany := any_sse
  index E v i := some (opIndex E v i)

end LFA.SV.SseFloat4

namespace LFA.SV.SseFloat8
/-- short_vec_sse_float_8.hpp, if compiled for sse, sse2. -/
def impl_sse : Impl 32 where
  N := 8
  V := V
  lanes := V.lanes
  bcast := bcast
  add E a b := some (opAdd E a b)
  sub E a b := some (opSub E a b)
  mul E a b := some (opMul E a b)
  div E a b := some (opDiv E a b)
  addA E a b := some (opAddAssign E a b)
  subA E a b := some (opSubAssign E a b)
  mulA E a b := some (opMulAssign E a b)
  divA E a b := some (opDivAssign E a b)
  sqrt E a := some (ofSqrt E ⟨a⟩)
  sqrtM E a := some (sqrt E a)
  divSqrt E a b := some (opDivSqrt E a ⟨b⟩)
  divSqrtA E a b := some (opDivAssignSqrt E a ⟨b⟩)
  load E m v p := load E m v p
  loadA E m v p := load_aligned E m v p
  ofPtr E m p := ofPtr E m p
  ofList E m p := ofList E m p
  store E v p := store E v p
  storeA E v p := store_aligned E v p
  storeNT E v p := store_nt E v p
  shl E v p := opStore E p v
  gather E m mo v p o := gather_sse E m mo v p o
  scatter E mo v p o := scatter_sse E mo v p o
  print := print

/-- Comparisons of short_vec_sse_float_8.hpp. -/
def cmp_sse : Cmp impl_sse where
  M := V
  kind := .vec
  lt E a b := some (opLt E a b)
  le E a b := some (opLe E a b)
  eq E a b := some (opEq E a b)
  gt E a b := some (opGt E a b)
  ge E a b := some (opGe E a b)
  blend := blend_sse
  vany := any_sse
  index E v i := opIndex E v i

end LFA.SV.SseFloat8

namespace LFA.SV.SseFloat8
/-- short_vec_sse_float_8.hpp, if compiled for sse41. -/
def impl_sse41 : Impl 32 where
  N := 8
  V := V
  lanes := V.lanes
  bcast := bcast
  add E a b := some (opAdd E a b)
  sub E a b := some (opSub E a b)
  mul E a b := some (opMul E a b)
  div E a b := some (opDiv E a b)
  addA E a b := some (opAddAssign E a b)
  subA E a b := some (opSubAssign E a b)
  mulA E a b := some (opMulAssign E a b)
  divA E a b := some (opDivAssign E a b)
  sqrt E a := some (ofSqrt E ⟨a⟩)
  sqrtM E a := some (sqrt E a)
  divSqrt E a b := some (opDivSqrt E a ⟨b⟩)
  divSqrtA E a b := some (opDivAssignSqrt E a ⟨b⟩)
  load E m v p := load E m v p
  loadA E m v p := load_aligned E m v p
  ofPtr E m p := ofPtr E m p
  ofList E m p := ofList E m p
  store E v p := store E v p
  storeA E v p := store_aligned E v p
  storeNT E v p := store_nt E v p
  shl E v p := opStore E p v
  gather E m mo v p o := gather_sse41 E m mo v p o
  scatter E mo v p o := scatter_sse41 E mo v p o
  print := print

/-- Comparisons of short_vec_sse_float_8.hpp. -/
def cmp_sse41 : Cmp impl_sse41 where
  M := V
  kind := .vec
  lt E a b := some (opLt E a b)
  le E a b := some (opLe E a b)
  eq E a b := some (opEq E a b)
  gt E a b := some (opGt E a b)
  ge E a b := some (opGe E a b)
  blend := blend_sse41
  vany := any_sse41
  index E v i := opIndex E v i

end LFA.SV.SseFloat8

namespace LFA.SV.SseFloat16
/-- short_vec_sse_float_16.hpp, if compiled for sse, sse2. -/
def impl_sse : Impl 32 where
  N := 16
  V := V
  lanes := V.lanes
  bcast := bcast
  add E a b := some (opAdd E a b)
  sub E a b := some (opSub E a b)
  mul E a b := some (opMul E a b)
  div E a b := some (opDiv E a b)
  addA E a b := some (opAddAssign E a b)
  subA E a b := some (opSubAssign E a b)
  mulA E a b := some (opMulAssign E a b)
  divA E a b := some (opDivAssign E a b)
  sqrt E a := some (ofSqrt E ⟨a⟩)
  sqrtM E a := some (sqrt E a)
  divSqrt E a b := some (opDivSqrt E a ⟨b⟩)
  divSqrtA E a b := some (opDivAssignSqrt E a ⟨b⟩)
  load E m v p := load E m v p
  loadA E m v p := load_aligned E m v p
  ofPtr E m p := ofPtr E m p
  ofList E m p := ofList E m p
  store E v p := store E v p
  storeA E v p := store_aligned E v p
  storeNT E v p := store_nt E v p
  shl E v p := opStore E p v
  gather E m mo v p o := gather_sse E m mo v p o
  scatter E mo v p o := scatter_sse E mo v p o
  print := print

/-- Comparisons of short_vec_sse_float_16.hpp. -/
def cmp_sse : Cmp impl_sse where
  M := V
  kind := .vec
  lt E a b := some (opLt E a b)
  le E a b := some (opLe E a b)
  eq E a b := some (opEq E a b)
  gt E a b := some (opGt E a b)
  ge E a b := some (opGe E a b)
  blend := blend_sse
  vany := any_sse
  index E v i := opIndex E v i

end LFA.SV.SseFloat16

namespace LFA.SV.SseFloat16
/-- short_vec_sse_float_16.hpp, if compiled for sse41. -/
def impl_sse41 : Impl 32 where
  N := 16
  V := V
  lanes := V.lanes
  bcast := bcast
  add E a b := some (opAdd E a b)
  sub E a b := some (opSub E a b)
  mul E a b := some (opMul E a b)
  div E a b := some (opDiv E a b)
  addA E a b := some (opAddAssign E a b)
  subA E a b := some (opSubAssign E a b)
  mulA E a b := some (opMulAssign E a b)
  divA E a b := some (opDivAssign E a b)
  sqrt E a := some (ofSqrt E ⟨a⟩)
  sqrtM E a := some (sqrt E a)
  divSqrt E a b := some (opDivSqrt E a ⟨b⟩)
  divSqrtA E a b := some (opDivAssignSqrt E a ⟨b⟩)
  load E m v p := load E m v p
  loadA E m v p := load_aligned E m v p
  ofPtr E m p := ofPtr E m p
  ofList E m p := ofList E m p
  store E v p := store E v p
  storeA E v p := store_aligned E v p
  storeNT E v p := store_nt E v p
  shl E v p := opStore E p v
  gather E m mo v p o := gather_sse41 E m mo v p o
  scatter E mo v p o := scatter_sse41 E mo v p o
  print := print

/-- Comparisons of short_vec_sse_float_16.hpp. -/
def cmp_sse41 : Cmp impl_sse41 where
  M := V
  kind := .vec
  lt E a b := some (opLt E a b)
  le E a b := some (opLe E a b)
  eq E a b := some (opEq E a b)
  gt E a b := some (opGt E a b)
  ge E a b := some (opGe E a b)
  blend := blend_sse41
  vany := any_sse41
  index E v i := opIndex E v i

end LFA.SV.SseFloat16

namespace LFA.SV.SseFloat32
/-- short_vec_sse_float_32.hpp, if compiled for sse, sse2. -/
def impl_sse : Impl 32 where
  N := 32
  V := V
  lanes := V.lanes
  bcast := bcast
  add E a b := some (opAdd E a b)
  sub E a b := some (opSub E a b)
  mul E a b := some (opMul E a b)
  div E a b := some (opDiv E a b)
  addA E a b := some (opAddAssign E a b)
  subA E a b := some (opSubAssign E a b)
  mulA E a b := some (opMulAssign E a b)
  divA E a b := some (opDivAssign E a b)
  sqrt E a := some (ofSqrt E ⟨a⟩)
  sqrtM E a := some (sqrt E a)
  divSqrt E a b := some (opDivSqrt E a ⟨b⟩)
  divSqrtA E a b := some (opDivAssignSqrt E a ⟨b⟩)
  load E m v p := load E m v p
  loadA E m v p := load_aligned E m v p
  ofPtr E m p := ofPtr E m p
  ofList E m p := ofList E m p
  store E v p := store E v p
  storeA E v p := store_aligned E v p
  storeNT E v p := store_nt E v p
  shl E v p := opStore E p v
  gather E m mo v p o := gather_sse E m mo v p o
  scatter E mo v p o := scatter_sse E mo v p o
  print := print

/-- Comparisons of short_vec_sse_float_32.hpp. -/
def cmp_sse : Cmp impl_sse where
  M := V
  kind := .vec
  lt E a b := some (opLt E a b)
  le E a b := some (opLe E a b)
  eq E a b := some (opEq E a b)
  gt E a b := some (opGt E a b)
  ge E a b := some (opGe E a b)
  blend := blend_sse
  vany := any_sse
  index E v i := opIndex E v i

end LFA.SV.SseFloat32

namespace LFA.SV.SseFloat32
/-- short_vec_sse_float_32.hpp, if compiled for sse41. -/
def impl_sse41 : Impl 32 where
  N := 32
  V := V
  lanes := V.lanes
  bcast := bcast
  add E a b := some (opAdd E a b)
  sub E a b := some (opSub E a b)
  mul E a b := some (opMul E a b)
  div E a b := some (opDiv E a b)
  addA E a b := some (opAddAssign E a b)
  subA E a b := some (opSubAssign E a b)
  mulA E a b := some (opMulAssign E a b)
  divA E a b := some (opDivAssign E a b)
  sqrt E a := some (ofSqrt E ⟨a⟩)
  sqrtM E a := some (sqrt E a)
  divSqrt E a b := some (opDivSqrt E a ⟨b⟩)
  divSqrtA E a b := some (opDivAssignSqrt E a ⟨b⟩)
  load E m v p := load E m v p
  loadA E m v p := load_aligned E m v p
  ofPtr E m p := ofPtr E m p
  ofList E m p := ofList E m p
  store E v p := store E v p
  storeA E v p := store_aligned E v p
  storeNT E v p := store_nt E v p
  shl E v p := opStore E p v
  gather E m mo v p o := gather_sse41 E m mo v p o
  scatter E mo v p o := scatter_sse41 E mo v p o
  print := print

/-- Comparisons of short_vec_sse_float_32.hpp. -/
def cmp_sse41 : Cmp impl_sse41 where
  M := V
  kind := .vec
  lt E a b := some (opLt E a b)
  le E a b := some (opLe E a b)
  eq E a b := some (opEq E a b)
  gt E a b := some (opGt E a b)
  ge E a b := some (opGe E a b)
  blend := blend_sse41
  vany := any_sse41
  index E v i := opIndex E v i

end LFA.SV.SseFloat32

namespace LFA.SV.SseInt4
/-- short_vec_sse_int_4.hpp, if compiled for avx512f, avx, avx2, sse41. -/
def impl_avx512f : Impl 32 where
  N := 4
  V := V
  lanes := V.lanes
  bcast := bcast
  add E a b := some (opAdd E a b)
  sub E a b := some (opSub E a b)
  mul E a b := some (opMul_avx512f E a b)
  div E a b := some (opDiv E a b)
  addA E a b := some (opAddAssign E a b)
  subA E a b := some (opSubAssign E a b)
  mulA E a b := some (opMulAssign_avx512f E a b)
  divA E a b := some (opDivAssign E a b)
  sqrt E a := some (ofSqrt E ⟨a⟩)
  sqrtM E a := some (sqrt E a)
  divSqrt E a b := some (opDivSqrt E a ⟨b⟩)
  divSqrtA E a b := some (opDivAssignSqrt E a ⟨b⟩)
  load E m v p := load E m v p
  loadA E m v p := load_aligned E m v p
  ofPtr E m p := ofPtr E m p
  ofList E m p := ofList E m p
  store E v p := store E v p
  storeA E v p := store_aligned E v p
  storeNT E v p := store_nt E v p
  shl E v p := opStore E p v
  gather E m mo v p o := gather_avx512f E m mo v p o
  scatter E mo v p o := scatter_avx512f E mo v p o
  print := print

end LFA.SV.SseInt4

namespace LFA.SV.SseInt4
/-- short_vec_sse_int_4.hpp, if compiled for sse, sse2. -/
def impl_sse : Impl 32 where
  N := 4
  V := V
  lanes := V.lanes
  bcast := bcast
  add E a b := some (opAdd E a b)
  sub E a b := some (opSub E a b)
  mul E a b := some (opMul_sse E a b)
  div E a b := some (opDiv E a b)
  addA E a b := some (opAddAssign E a b)
  subA E a b := some (opSubAssign E a b)
  mulA E a b := some (opMulAssign_sse E a b)
  divA E a b := some (opDivAssign E a b)
  sqrt E a := some (ofSqrt E ⟨a⟩)
  sqrtM E a := some (sqrt E a)
  divSqrt E a b := some (opDivSqrt E a ⟨b⟩)
  divSqrtA E a b := some (opDivAssignSqrt E a ⟨b⟩)
  load E m v p := load E m v p
  loadA E m v p := load_aligned E m v p
  ofPtr E m p := ofPtr E m p
  ofList E m p := ofList E m p
  store E v p := store E v p
  storeA E v p := store_aligned E v p
  storeNT E v p := store_nt E v p
  shl E v p := opStore E p v
  gather E m mo v p o := gather_sse E m mo v p o
  scatter E mo v p o := scatter_sse E mo v p o
  print := print

end LFA.SV.SseInt4

namespace LFA.SV.SseInt8
/-- short_vec_sse_int_8.hpp, if compiled for avx, sse41. -/
def impl_avx : Impl 32 where
  N := 8
  V := V
  lanes := V.lanes
  bcast := bcast
  add E a b := some (opAdd E a b)
  sub E a b := some (opSub E a b)
  mul E a b := some (opMul_avx E a b)
  div E a b := some (opDiv E a b)
  addA E a b := some (opAddAssign E a b)
  subA E a b := some (opSubAssign E a b)
  mulA E a b := some (opMulAssign_avx E a b)
  divA E a b := some (opDivAssign E a b)
  sqrt E a := some (ofSqrt E ⟨a⟩)
  sqrtM E a := some (sqrt E a)
  divSqrt E a b := some (opDivSqrt E a ⟨b⟩)
  divSqrtA E a b := some (opDivAssignSqrt E a ⟨b⟩)
  load E m v p := load E m v p
  loadA E m v p := load_aligned E m v p
  ofPtr E m p := ofPtr E m p
  ofList E m p := ofList E m p
  store E v p := store E v p
  storeA E v p := store_aligned E v p
  storeNT E v p := store_nt E v p
  shl E v p := opStore E p v
  gather E m mo v p o := gather_avx E m mo v p o
  scatter E mo v p o := scatter_avx E mo v p o
  print := print

end LFA.SV.SseInt8

namespace LFA.SV.SseInt8
/-- short_vec_sse_int_8.hpp, if compiled for sse, sse2. -/
def impl_sse : Impl 32 where
  N := 8
  V := V
  lanes := V.lanes
  bcast := bcast
  add E a b := some (opAdd E a b)
  sub E a b := some (opSub E a b)
  mul E a b := some (opMul_sse E a b)
  div E a b := some (opDiv E a b)
  addA E a b := some (opAddAssign E a b)
  subA E a b := some (opSubAssign E a b)
  mulA E a b := some (opMulAssign_sse E a b)
  divA E a b := some (opDivAssign E a b)
  sqrt E a := some (ofSqrt E ⟨a⟩)
  sqrtM E a := some (sqrt E a)
  divSqrt E a b := some (opDivSqrt E a ⟨b⟩)
  divSqrtA E a b := some (opDivAssignSqrt E a ⟨b⟩)
  load E m v p := load E m v p
  loadA E m v p := load_aligned E m v p
  ofPtr E m p := ofPtr E m p
  ofList E m p := ofList E m p
  store E v p := store E v p
  storeA E v p := store_aligned E v p
  storeNT E v p := store_nt E v p
  shl E v p := opStore E p v
  gather E m mo v p o := gather_sse E m mo v p o
  scatter E mo v p o := scatter_sse E mo v p o
  print := print

end LFA.SV.SseInt8

namespace LFA.SV.SseInt16
/-- short_vec_sse_int_16.hpp, if compiled for avx, sse41. -/
def impl_avx : Impl 32 where
  N := 16
  V := V
  lanes := V.lanes
  bcast := bcast
  add E a b := some (opAdd E a b)
  sub E a b := some (opSub E a b)
  mul E a b := some (opMul_avx E a b)
  div E a b := some (opDiv E a b)
  addA E a b := some (opAddAssign E a b)
  subA E a b := some (opSubAssign E a b)
  mulA E a b := some (opMulAssign_avx E a b)
  divA E a b := some (opDivAssign E a b)
  sqrt E a := some (ofSqrt E ⟨a⟩)
  sqrtM E a := some (sqrt E a)
  divSqrt E a b := some (opDivSqrt E a ⟨b⟩)
  divSqrtA E a b := some (opDivAssignSqrt E a ⟨b⟩)
  load E m v p := load E m v p
  loadA E m v p := load_aligned E m v p
  ofPtr E m p := ofPtr E m p
  ofList E m p := ofList E m p
  store E v p := store E v p
  storeA E v p := store_aligned E v p
  storeNT E v p := store_nt E v p
  shl E v p := opStore E p v
  gather E m mo v p o := gather_avx E m mo v p o
  scatter E mo v p o := scatter_avx E mo v p o
  print := print

end LFA.SV.SseInt16

namespace LFA.SV.SseInt16
/-- short_vec_sse_int_16.hpp, if compiled for sse, sse2. -/
def impl_sse : Impl 32 where
  N := 16
  V := V
  lanes := V.lanes
  bcast := bcast
  add E a b := some (opAdd E a b)
  sub E a b := some (opSub E a b)
  mul E a b := some (opMul_sse E a b)
  div E a b := some (opDiv E a b)
  addA E a b := some (opAddAssign E a b)
  subA E a b := some (opSubAssign E a b)
  mulA E a b := some (opMulAssign_sse E a b)
  divA E a b := some (opDivAssign E a b)
  sqrt E a := some (ofSqrt E ⟨a⟩)
  sqrtM E a := some (sqrt E a)
  divSqrt E a b := some (opDivSqrt E a ⟨b⟩)
  divSqrtA E a b := some (opDivAssignSqrt E a ⟨b⟩)
  load E m v p := load E m v p
  loadA E m v p := load_aligned E m v p
  ofPtr E m p := ofPtr E m p
  ofList E m p := ofList E m p
  store E v p := store E v p
  storeA E v p := store_aligned E v p
  storeNT E v p := store_nt E v p
  shl E v p := opStore E p v
  gather E m mo v p o := gather_sse E m mo v p o
  scatter E mo v p o := scatter_sse E mo v p o
  print := print

end LFA.SV.SseInt16

namespace LFA.SV.SseInt32
/-- short_vec_sse_int_32.hpp, if compiled for avx, sse41. -/
def impl_avx : Impl 32 where
  N := 32
  V := V
  lanes := V.lanes
  bcast := bcast
  add E a b := some (opAdd E a b)
  sub E a b := some (opSub E a b)
  mul E a b := some (opMul_avx E a b)
  div E a b := some (opDiv E a b)
  addA E a b := some (opAddAssign E a b)
  subA E a b := some (opSubAssign E a b)
  mulA E a b := some (opMulAssign_avx E a b)
  divA E a b := some (opDivAssign E a b)
  sqrt E a := some (ofSqrt E ⟨a⟩)
  sqrtM E a := some (sqrt E a)
  divSqrt E a b := some (opDivSqrt E a ⟨b⟩)
  divSqrtA E a b := some (opDivAssignSqrt E a ⟨b⟩)
  load E m v p := load E m v p
  loadA E m v p := load_aligned E m v p
  ofPtr E m p := ofPtr E m p
  ofList E m p := ofList E m p
  store E v p := store E v p
  storeA E v p := store_aligned E v p
  storeNT E v p := store_nt E v p
  shl E v p := opStore E p v
  gather E m mo v p o := gather_avx E m mo v p o
  scatter E mo v p o := scatter_avx E mo v p o
  print := print

end LFA.SV.SseInt32

namespace LFA.SV.SseInt32
/-- short_vec_sse_int_32.hpp, if compiled for sse, sse2. -/
def impl_sse : Impl 32 where
  N := 32
  V := V
  lanes := V.lanes
  bcast := bcast
  add E a b := some (opAdd E a b)
  sub E a b := some (opSub E a b)
  mul E a b := some (opMul_sse E a b)
  div E a b := some (opDiv E a b)
  addA E a b := some (opAddAssign E a b)
  subA E a b := some (opSubAssign E a b)
  mulA E a b := some (opMulAssign_sse E a b)
  divA E a b := some (opDivAssign E a b)
  sqrt E a := some (ofSqrt E ⟨a⟩)
  sqrtM E a := some (sqrt E a)
  divSqrt E a b := some (opDivSqrt E a ⟨b⟩)
  divSqrtA E a b := some (opDivAssignSqrt E a ⟨b⟩)
  load E m v p := load E m v p
  loadA E m v p := load_aligned E m v p
  ofPtr E m p := ofPtr E m p
  ofList E m p := ofList E m p
  store E v p := store E v p
  storeA E v p := store_aligned E v p
  storeNT E v p := store_nt E v p
  shl E v p := opStore E p v
  gather E m mo v p o := gather_sse E m mo v p o
  scatter E mo v p o := scatter_sse E mo v p o
  print := print

end LFA.SV.SseInt32

namespace LFA.SV

/-- The specializations of `short_vec<float, ARITY>` which are defined if compiled for a target. -/
def floatVecs : Cfg → List (Entry 32)
  | .scalar => [⟨ScalarFloat1.impl, some ScalarFloat1.cmp, some .scalar⟩, ⟨ScalarFloat2.impl, some ScalarFloat2.cmp, some
      .scalar⟩, ⟨ScalarFloat4.impl, some ScalarFloat4.cmp, some .scalar⟩, ⟨ScalarFloat8.impl, some ScalarFloat8.cmp, some
      .scalar⟩, ⟨ScalarFloat16.impl, some ScalarFloat16.cmp, some .scalar⟩, ⟨ScalarFloat32.impl, some ScalarFloat32.cmp, some
      .scalar⟩]
  | .qpx => [⟨ScalarFloat1.impl, some ScalarFloat1.cmp, some .scalar⟩, ⟨ScalarFloat2.impl, some ScalarFloat2.cmp, some .scalar⟩,
      ⟨ScalarFloat4.impl, some ScalarFloat4.cmp, some .scalar⟩, ⟨ScalarFloat8.impl, some ScalarFloat8.cmp, some .scalar⟩,
      ⟨ScalarFloat16.impl, some ScalarFloat16.cmp, some .scalar⟩]
  | .neon => [⟨ScalarFloat1.impl, some ScalarFloat1.cmp, some .scalar⟩, ⟨ScalarFloat2.impl, some ScalarFloat2.cmp, some
      .scalar⟩, ⟨NeonFloat4.impl_neon, none, some .neon⟩, ⟨NeonFloat8.impl_neon, none, some .neon⟩, ⟨NeonFloat16.impl_neon,
      none, some .neon⟩, ⟨NeonFloat32.impl_neon, none, some .neon⟩]
  | .neon_lp64 => [⟨ScalarFloat1.impl, some ScalarFloat1.cmp, some .scalar⟩, ⟨ScalarFloat2.impl, some ScalarFloat2.cmp, some
      .scalar⟩, ⟨NeonFloat4.impl_neon_lp64, none, some .neon⟩, ⟨NeonFloat8.impl_neon_lp64, none, some .neon⟩,
      ⟨NeonFloat16.impl_neon_lp64, none, some .neon⟩, ⟨NeonFloat32.impl_neon_lp64, none, some .neon⟩]
  | .neon_prec => [⟨ScalarFloat1.impl, some ScalarFloat1.cmp, some .scalar⟩, ⟨ScalarFloat2.impl, some ScalarFloat2.cmp, some
      .scalar⟩, ⟨NeonFloat4.impl_neon_prec, none, some .neon⟩, ⟨NeonFloat8.impl_neon_prec, none, some .neon⟩,
      ⟨NeonFloat16.impl_neon_prec, none, some .neon⟩, ⟨NeonFloat32.impl_neon_prec, none, some .neon⟩]
  | .neon_prec_lp64 => [⟨ScalarFloat1.impl, some ScalarFloat1.cmp, some .scalar⟩, ⟨ScalarFloat2.impl, some ScalarFloat2.cmp,
      some .scalar⟩, ⟨NeonFloat4.impl_neon_prec_lp64, none, some .neon⟩, ⟨NeonFloat8.impl_neon_prec_lp64, none, some .neon⟩,
      ⟨NeonFloat16.impl_neon_prec_lp64, none, some .neon⟩, ⟨NeonFloat32.impl_neon_prec_lp64, none, some .neon⟩]
  | .mic => [⟨ScalarFloat1.impl, some ScalarFloat1.cmp, some .scalar⟩, ⟨ScalarFloat2.impl, some ScalarFloat2.cmp, some .scalar⟩,
      ⟨ScalarFloat4.impl, some ScalarFloat4.cmp, some .scalar⟩, ⟨ScalarFloat8.impl, some ScalarFloat8.cmp, some .scalar⟩,
      ⟨MicFloat16.impl, none, some .mic⟩, ⟨MicFloat32.impl, none, some .mic⟩]
  | .avx512f => [⟨ScalarFloat1.impl, some ScalarFloat1.cmp, some .scalar⟩, ⟨ScalarFloat2.impl, some ScalarFloat2.cmp, some
      .scalar⟩, ⟨SseFloat4.impl_avx512f, some SseFloat4.cmp_avx512f, some .sse⟩, ⟨AvxFloat8.impl_avx512f, some
      AvxFloat8.cmp_avx512f, some .avx⟩, ⟨Avx512Float16.impl, some Avx512Float16.cmp, some .avx512f⟩, ⟨Avx512Float32.impl, some
      Avx512Float32.cmp, some .avx512f⟩]
  | .avx => [⟨ScalarFloat1.impl, some ScalarFloat1.cmp, some .scalar⟩, ⟨ScalarFloat2.impl, some ScalarFloat2.cmp, some .scalar⟩,
      ⟨SseFloat4.impl_avx512f, some SseFloat4.cmp_avx512f, some .sse⟩, ⟨AvxFloat8.impl_avx, some AvxFloat8.cmp_avx, some .avx⟩,
      ⟨AvxFloat16.impl_avx, some AvxFloat16.cmp_avx, some .avx⟩, ⟨AvxFloat32.impl_avx, some AvxFloat32.cmp_avx, some .avx⟩]
  | .avx2 => [⟨ScalarFloat1.impl, some ScalarFloat1.cmp, some .scalar⟩, ⟨ScalarFloat2.impl, some ScalarFloat2.cmp, some
      .scalar⟩, ⟨SseFloat4.impl_avx512f, some SseFloat4.cmp_avx512f, some .sse⟩, ⟨AvxFloat8.impl_avx512f, some
      AvxFloat8.cmp_avx512f, some .avx⟩, ⟨AvxFloat16.impl_avx2, some AvxFloat16.cmp_avx2, some .avx⟩, ⟨AvxFloat32.impl_avx2,
      some AvxFloat32.cmp_avx2, some .avx⟩]
  | .sse => [⟨ScalarFloat1.impl, some ScalarFloat1.cmp, some .scalar⟩, ⟨ScalarFloat2.impl, some ScalarFloat2.cmp, some .scalar⟩,
      ⟨SseFloat4.impl_sse, some SseFloat4.cmp_sse, some .sse⟩, ⟨SseFloat8.impl_sse, some SseFloat8.cmp_sse, some .sse⟩,
      ⟨SseFloat16.impl_sse, some SseFloat16.cmp_sse, some .sse⟩, ⟨SseFloat32.impl_sse, some SseFloat32.cmp_sse, some .sse⟩]
  | .sse2 => [⟨ScalarFloat1.impl, some ScalarFloat1.cmp, some .scalar⟩, ⟨ScalarFloat2.impl, some ScalarFloat2.cmp, some
      .scalar⟩, ⟨SseFloat4.impl_sse, some SseFloat4.cmp_sse, some .sse⟩, ⟨SseFloat8.impl_sse, some SseFloat8.cmp_sse, some
      .sse⟩, ⟨SseFloat16.impl_sse, some SseFloat16.cmp_sse, some .sse⟩, ⟨SseFloat32.impl_sse, some SseFloat32.cmp_sse, some
      .sse⟩]
  | .sse41 => [⟨ScalarFloat1.impl, some ScalarFloat1.cmp, some .scalar⟩, ⟨ScalarFloat2.impl, some ScalarFloat2.cmp, some
      .scalar⟩, ⟨SseFloat4.impl_avx512f, some SseFloat4.cmp_avx512f, some .sse⟩, ⟨SseFloat8.impl_sse41, some
      SseFloat8.cmp_sse41, some .sse⟩, ⟨SseFloat16.impl_sse41, some SseFloat16.cmp_sse41, some .sse⟩, ⟨SseFloat32.impl_sse41,
      some SseFloat32.cmp_sse41, some .sse⟩]

/-- The specializations of `short_vec<double, ARITY>` which are defined if compiled for a target. -/
def doubleVecs : Cfg → List (Entry 64)
  | .scalar => [⟨ScalarDouble1.impl, some ScalarDouble1.cmp, some .scalar⟩, ⟨ScalarDouble2.impl, some ScalarDouble2.cmp, some
      .scalar⟩, ⟨ScalarDouble4.impl, some ScalarDouble4.cmp, some .scalar⟩, ⟨ScalarDouble8.impl, some ScalarDouble8.cmp, some
      .scalar⟩, ⟨ScalarDouble16.impl, some ScalarDouble16.cmp, some .scalar⟩, ⟨ScalarDouble32.impl, some ScalarDouble32.cmp,
      some .scalar⟩]
  | .qpx => [⟨ScalarDouble1.impl, some ScalarDouble1.cmp, some .scalar⟩, ⟨ScalarDouble2.impl, some ScalarDouble2.cmp, some
      .scalar⟩, ⟨QpxDouble4.impl, none, none⟩, ⟨QpxDouble8.impl, none, none⟩, ⟨QpxDouble16.impl, none, none⟩, ⟨QpxDouble32.impl,
      none, none⟩]
  | .neon => [⟨ScalarDouble1.impl, some ScalarDouble1.cmp, some .scalar⟩, ⟨ScalarDouble2.impl, some ScalarDouble2.cmp, some
      .scalar⟩, ⟨ScalarDouble4.impl, some ScalarDouble4.cmp, some .scalar⟩, ⟨ScalarDouble8.impl, some ScalarDouble8.cmp, some
      .scalar⟩, ⟨ScalarDouble16.impl, some ScalarDouble16.cmp, some .scalar⟩, ⟨ScalarDouble32.impl, some ScalarDouble32.cmp,
      some .scalar⟩]
  | .neon_lp64 => [⟨ScalarDouble1.impl, some ScalarDouble1.cmp, some .scalar⟩, ⟨ScalarDouble2.impl, some ScalarDouble2.cmp, some
      .scalar⟩, ⟨ScalarDouble4.impl, some ScalarDouble4.cmp, some .scalar⟩, ⟨ScalarDouble8.impl, some ScalarDouble8.cmp, some
      .scalar⟩, ⟨ScalarDouble16.impl, some ScalarDouble16.cmp, some .scalar⟩, ⟨ScalarDouble32.impl, some ScalarDouble32.cmp,
      some .scalar⟩]
  | .neon_prec => [⟨ScalarDouble1.impl, some ScalarDouble1.cmp, some .scalar⟩, ⟨ScalarDouble2.impl, some ScalarDouble2.cmp, some
      .scalar⟩, ⟨ScalarDouble4.impl, some ScalarDouble4.cmp, some .scalar⟩, ⟨ScalarDouble8.impl, some ScalarDouble8.cmp, some
      .scalar⟩, ⟨ScalarDouble16.impl, some ScalarDouble16.cmp, some .scalar⟩, ⟨ScalarDouble32.impl, some ScalarDouble32.cmp,
      some .scalar⟩]
  | .neon_prec_lp64 => [⟨ScalarDouble1.impl, some ScalarDouble1.cmp, some .scalar⟩, ⟨ScalarDouble2.impl, some ScalarDouble2.cmp,
      some .scalar⟩, ⟨ScalarDouble4.impl, some ScalarDouble4.cmp, some .scalar⟩, ⟨ScalarDouble8.impl, some ScalarDouble8.cmp,
      some .scalar⟩, ⟨ScalarDouble16.impl, some ScalarDouble16.cmp, some .scalar⟩, ⟨ScalarDouble32.impl, some
      ScalarDouble32.cmp, some .scalar⟩]
  | .mic => [⟨ScalarDouble1.impl, some ScalarDouble1.cmp, some .scalar⟩, ⟨ScalarDouble2.impl, some ScalarDouble2.cmp, some
      .scalar⟩, ⟨ScalarDouble4.impl, some ScalarDouble4.cmp, some .scalar⟩, ⟨MicDouble8.impl, none, some .mic⟩,
      ⟨MicDouble16.impl, none, some .mic⟩, ⟨MicDouble32.impl, none, some .mic⟩]
  | .avx512f => [⟨ScalarDouble1.impl, some ScalarDouble1.cmp, some .scalar⟩, ⟨SseDouble2.impl_avx512f, some
      SseDouble2.cmp_avx512f, some .sse⟩, ⟨AvxDouble4.impl_avx512f, some AvxDouble4.cmp_avx512f, some .avx⟩,
      ⟨Avx512Double8.impl, some Avx512Double8.cmp, some .avx512f⟩, ⟨Avx512Double16.impl, some Avx512Double16.cmp, some
      .avx512f⟩, ⟨Avx512Double32.impl, some Avx512Double32.cmp, some .avx512f⟩]
  | .avx => [⟨ScalarDouble1.impl, some ScalarDouble1.cmp, some .scalar⟩, ⟨SseDouble2.impl_avx512f, some SseDouble2.cmp_avx512f,
      some .sse⟩, ⟨AvxDouble4.impl_avx, some AvxDouble4.cmp_avx, some .avx⟩, ⟨AvxDouble8.impl_avx, some AvxDouble8.cmp_avx, some
      .avx⟩, ⟨AvxDouble16.impl_avx, some AvxDouble16.cmp_avx, some .avx⟩, ⟨AvxDouble32.impl_avx, some AvxDouble32.cmp_avx, some
      .avx⟩]
  | .avx2 => [⟨ScalarDouble1.impl, some ScalarDouble1.cmp, some .scalar⟩, ⟨SseDouble2.impl_avx512f, some SseDouble2.cmp_avx512f,
      some .sse⟩, ⟨AvxDouble4.impl_avx512f, some AvxDouble4.cmp_avx512f, some .avx⟩, ⟨AvxDouble8.impl_avx2, some
      AvxDouble8.cmp_avx2, some .avx⟩, ⟨AvxDouble16.impl_avx2, some AvxDouble16.cmp_avx2, some .avx⟩, ⟨AvxDouble32.impl_avx2,
      some AvxDouble32.cmp_avx2, some .avx⟩]
  | .sse => [⟨ScalarDouble1.impl, some ScalarDouble1.cmp, some .scalar⟩, ⟨SseDouble2.impl_sse, some SseDouble2.cmp_sse, some
      .sse⟩, ⟨SseDouble4.impl_sse, some SseDouble4.cmp_sse, some .sse⟩, ⟨SseDouble8.impl_sse, some SseDouble8.cmp_sse, some
      .sse⟩, ⟨SseDouble16.impl_sse, some SseDouble16.cmp_sse, some .sse⟩, ⟨SseDouble32.impl_sse, some SseDouble32.cmp_sse, some
      .sse⟩]
  | .sse2 => [⟨ScalarDouble1.impl, some ScalarDouble1.cmp, some .scalar⟩, ⟨SseDouble2.impl_sse, some SseDouble2.cmp_sse, some
      .sse⟩, ⟨SseDouble4.impl_sse, some SseDouble4.cmp_sse, some .sse⟩, ⟨SseDouble8.impl_sse, some SseDouble8.cmp_sse, some
      .sse⟩, ⟨SseDouble16.impl_sse, some SseDouble16.cmp_sse, some .sse⟩, ⟨SseDouble32.impl_sse, some SseDouble32.cmp_sse, some
      .sse⟩]
  | .sse41 => [⟨ScalarDouble1.impl, some ScalarDouble1.cmp, some .scalar⟩, ⟨SseDouble2.impl_avx512f, some
      SseDouble2.cmp_avx512f, some .sse⟩, ⟨SseDouble4.impl_sse41, some SseDouble4.cmp_sse41, some .sse⟩, ⟨SseDouble8.impl_sse41,
      some SseDouble8.cmp_sse41, some .sse⟩, ⟨SseDouble16.impl_sse41, some SseDouble16.cmp_sse41, some .sse⟩,
      ⟨SseDouble32.impl_sse41, some SseDouble32.cmp_sse41, some .sse⟩]

/-- The specializations of `short_vec<int, ARITY>` which are defined if compiled for a target. -/
def intVecs : Cfg → List (Entry 32)
  | .scalar => [⟨ScalarInt1.impl, none, some .scalar⟩, ⟨ScalarInt2.impl, none, some .scalar⟩, ⟨ScalarInt4.impl, none, some
      .scalar⟩, ⟨ScalarInt8.impl, none, some .scalar⟩, ⟨ScalarInt16.impl, none, some .scalar⟩, ⟨ScalarInt32.impl, none, some
      .scalar⟩]
  | .qpx => [⟨ScalarInt1.impl, none, some .scalar⟩, ⟨ScalarInt2.impl, none, some .scalar⟩, ⟨ScalarInt4.impl, none, some
      .scalar⟩, ⟨ScalarInt8.impl, none, some .scalar⟩, ⟨ScalarInt16.impl, none, some .scalar⟩, ⟨ScalarInt32.impl, none, some
      .scalar⟩]
  | .neon => [⟨ScalarInt1.impl, none, some .scalar⟩, ⟨ScalarInt2.impl, none, some .scalar⟩, ⟨ScalarInt4.impl, none, some
      .scalar⟩, ⟨ScalarInt8.impl, none, some .scalar⟩, ⟨ScalarInt16.impl, none, some .scalar⟩, ⟨ScalarInt32.impl, none, some
      .scalar⟩]
  | .neon_lp64 => [⟨ScalarInt1.impl, none, some .scalar⟩, ⟨ScalarInt2.impl, none, some .scalar⟩, ⟨ScalarInt4.impl, none, some
      .scalar⟩, ⟨ScalarInt8.impl, none, some .scalar⟩, ⟨ScalarInt16.impl, none, some .scalar⟩, ⟨ScalarInt32.impl, none, some
      .scalar⟩]
  | .neon_prec => [⟨ScalarInt1.impl, none, some .scalar⟩, ⟨ScalarInt2.impl, none, some .scalar⟩, ⟨ScalarInt4.impl, none, some
      .scalar⟩, ⟨ScalarInt8.impl, none, some .scalar⟩, ⟨ScalarInt16.impl, none, some .scalar⟩, ⟨ScalarInt32.impl, none, some
      .scalar⟩]
  | .neon_prec_lp64 => [⟨ScalarInt1.impl, none, some .scalar⟩, ⟨ScalarInt2.impl, none, some .scalar⟩, ⟨ScalarInt4.impl, none,
      some .scalar⟩, ⟨ScalarInt8.impl, none, some .scalar⟩, ⟨ScalarInt16.impl, none, some .scalar⟩, ⟨ScalarInt32.impl, none,
      some .scalar⟩]
  | .mic => [⟨ScalarInt1.impl, none, some .scalar⟩, ⟨ScalarInt2.impl, none, some .scalar⟩, ⟨ScalarInt4.impl, none, some
      .scalar⟩, ⟨ScalarInt8.impl, none, some .scalar⟩, ⟨ScalarInt16.impl, none, some .scalar⟩, ⟨ScalarInt32.impl, none, some
      .scalar⟩]
  | .avx512f => [⟨ScalarInt1.impl, none, some .scalar⟩, ⟨ScalarInt2.impl, none, some .scalar⟩, ⟨SseInt4.impl_avx512f, none, some
      .sse⟩, ⟨AvxInt8.impl, none, some .avx2⟩, ⟨Avx512Int16.impl, none, some .avx512f⟩, ⟨Avx512Int32.impl, none, some .avx512f⟩]
  | .avx => [⟨ScalarInt1.impl, none, some .scalar⟩, ⟨ScalarInt2.impl, none, some .scalar⟩, ⟨SseInt4.impl_avx512f, none, some
      .sse⟩, ⟨SseInt8.impl_avx, none, some .sse⟩, ⟨SseInt16.impl_avx, none, some .sse⟩, ⟨SseInt32.impl_avx, none, some .sse⟩]
  | .avx2 => [⟨ScalarInt1.impl, none, some .scalar⟩, ⟨ScalarInt2.impl, none, some .scalar⟩, ⟨SseInt4.impl_avx512f, none, some
      .sse⟩, ⟨AvxInt8.impl, none, some .avx2⟩, ⟨AvxInt16.impl, none, some .avx2⟩, ⟨AvxInt32.impl, none, some .avx2⟩]
  | .sse => [⟨ScalarInt1.impl, none, some .scalar⟩, ⟨ScalarInt2.impl, none, some .scalar⟩, ⟨SseInt4.impl_sse, none, some .sse⟩,
      ⟨SseInt8.impl_sse, none, some .sse⟩, ⟨SseInt16.impl_sse, none, some .sse⟩, ⟨SseInt32.impl_sse, none, some .sse⟩]
  | .sse2 => [⟨ScalarInt1.impl, none, some .scalar⟩, ⟨ScalarInt2.impl, none, some .scalar⟩, ⟨SseInt4.impl_sse, none, some .sse⟩,
      ⟨SseInt8.impl_sse, none, some .sse⟩, ⟨SseInt16.impl_sse, none, some .sse⟩, ⟨SseInt32.impl_sse, none, some .sse⟩]
  | .sse41 => [⟨ScalarInt1.impl, none, some .scalar⟩, ⟨ScalarInt2.impl, none, some .scalar⟩, ⟨SseInt4.impl_avx512f, none, some
      .sse⟩, ⟨SseInt8.impl_avx, none, some .sse⟩, ⟨SseInt16.impl_avx, none, some .sse⟩, ⟨SseInt32.impl_avx, none, some .sse⟩]

end LFA.SV
