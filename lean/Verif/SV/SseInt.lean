/-
  Generated by tools/sv_gen.py from detail/short_vec_sse_int_*.hpp.
-/
import Verif.SV.Base
set_option linter.unusedVariables false
set_option autoImplicit false

namespace LFA.SV.SseInt4

/-- members of `short_vec<int, 4>` (detail/short_vec_sse_int_4.hpp:59) -/
structure V where
  val : M128i

/-- lanes, from low to high -/
def V.lanes (v : V) : List (BitVec 32) := SV.lanes v.val

/-- `sqrt_reference<int, 4>`: keeps the vector until the square root is needed -/
structure SqrtRef where
  vec : V

/-- constructor (detail/short_vec_sse_int_4.hpp:71-74) -/
def bcast (E : FEnv) (data : BitVec 32) : V := ⟨_mm_set1_epi32 data⟩

/-- constructor (detail/short_vec_sse_int_4.hpp:82-85) -/
def ofRegs (E : FEnv) (val : M128i) : V := ⟨val⟩

/-- `load` (detail/short_vec_sse_int_4.hpp:195-199) -/
def load (E : FEnv) (m : Mem 32) (self : V) (data : Int) : Option V := do
  let t1 ← _mm_loadu_si128 m data
  let val : M128i := t1
  some ⟨val⟩

/-- `store` (detail/short_vec_sse_int_4.hpp:208-212) -/
def store (E : FEnv) (self : V) (data : Int) : Option (Writes 32) := do
  let w1 ← _mm_storeu_si128 data self.val
  some w1

/-- `sqrt` (detail/short_vec_sse_int_4.hpp:187-193) -/
def sqrt (E : FEnv) (self : V) : V := ofRegs E (_mm_cvtps_epi32 E (_mm_sqrt_ps E (_mm_cvtepi32_ps E self.val)))

/-- constructor of `sqrt_reference` (detail/short_vec_sse_int_4.hpp:299-304) -/
def ofSqrt (E : FEnv) (other : SqrtRef) : V := ⟨_mm_cvtps_epi32 E (_mm_sqrt_ps E (_mm_cvtepi32_ps E other.vec.val))⟩

/-- constructor (detail/short_vec_sse_int_4.hpp:76-80) -/
def ofPtr (E : FEnv) (m : Mem 32) (data : Int) : Option V := do
  let v1 ← load E m ⟨(uninit : M128i)⟩ data
  some ⟨v1.val⟩

/-- constructor (detail/short_vec_sse_int_4.hpp:88-93) -/
def ofList (E : FEnv) (m : Mem 32) (il : Int) : Option V := do
  let v1 ← load E m ⟨(uninit : M128i)⟩ il
  some ⟨v1.val⟩

/-- `operator-=` (detail/short_vec_sse_int_4.hpp:99-103) -/
def opSubAssign (E : FEnv) (self : V) (other : V) : V :=
  let val : M128i := _mm_sub_epi32 self.val other.val
  ⟨val⟩

/-- `operator-` (detail/short_vec_sse_int_4.hpp:105-110) -/
def opSub (E : FEnv) (self : V) (other : V) : V := ofRegs E (_mm_sub_epi32 self.val other.val)

/-- `operator+=` (detail/short_vec_sse_int_4.hpp:112-116) -/
def opAddAssign (E : FEnv) (self : V) (other : V) : V :=
  let val : M128i := _mm_add_epi32 self.val other.val
  ⟨val⟩

/-- `operator+` (detail/short_vec_sse_int_4.hpp:118-123) -/
def opAdd (E : FEnv) (self : V) (other : V) : V := ofRegs E (_mm_add_epi32 self.val other.val)

/-- `operator*=` (detail/short_vec_sse_int_4.hpp:126-130; avx512f, avx, avx2, sse41) -/
def opMulAssign_avx512f (E : FEnv) (self : V) (other : V) : V :=
  let val : M128i := _mm_mullo_epi32 self.val other.val
  ⟨val⟩

/-- `operator*=` (detail/short_vec_sse_int_4.hpp:139-149; sse, sse2) -/
def opMulAssign_sse (E : FEnv) (self : V) (other : V) : V :=
  let tmp1 : M128i := _mm_mul_epu32 self.val other.val
  let tmp2 : M128i := _mm_mul_epu32 (_mm_srli_si128 self.val 4) (_mm_srli_si128 other.val 4)
  let val : M128i := _mm_unpacklo_epi32 (_mm_shuffle_epi32 tmp1 (_MM_SHUFFLE 0 0 2 0)) (_mm_shuffle_epi32 tmp2 (_MM_SHUFFLE 0 0
      2 0))
  ⟨val⟩

/-- `operator*` (detail/short_vec_sse_int_4.hpp:132-137; avx512f, avx, avx2, sse41) -/
def opMul_avx512f (E : FEnv) (self : V) (other : V) : V := ofRegs E (_mm_mullo_epi32 self.val other.val)

/-- `operator*` (detail/short_vec_sse_int_4.hpp:151-162; sse, sse2) -/
def opMul_sse (E : FEnv) (self : V) (other : V) : V :=
  let tmp1 : M128i := _mm_mul_epu32 self.val other.val
  let tmp2 : M128i := _mm_mul_epu32 (_mm_srli_si128 self.val 4) (_mm_srli_si128 other.val 4)
  ofRegs E (_mm_unpacklo_epi32 (_mm_shuffle_epi32 tmp1 (_MM_SHUFFLE 0 0 2 0)) (_mm_shuffle_epi32 tmp2 (_MM_SHUFFLE 0 0 2 0)))

/-- `operator/=` (detail/short_vec_sse_int_4.hpp:165-170) -/
def opDivAssign (E : FEnv) (self : V) (other : V) : V :=
  let val : M128i := _mm_cvtps_epi32 E (_mm_div_ps E (_mm_cvtepi32_ps E self.val) (_mm_cvtepi32_ps E other.val))
  ⟨val⟩

/-- `operator/` (detail/short_vec_sse_int_4.hpp:175-182) -/
def opDiv (E : FEnv) (self : V) (other : V) : V :=
  ofRegs E (_mm_cvttps_epi32 E (_mm_div_ps E (_mm_cvtepi32_ps E self.val) (_mm_cvtepi32_ps E other.val)))

/-- `load_aligned` (detail/short_vec_sse_int_4.hpp:201-206) -/
def load_aligned (E : FEnv) (m : Mem 32) (self : V) (data : Int) : Option V := do
  assertAligned 4 data 16
  let t1 ← _mm_load_si128 m data
  let val : M128i := t1
  some ⟨val⟩

/-- `store_aligned` (detail/short_vec_sse_int_4.hpp:214-219) -/
def store_aligned (E : FEnv) (self : V) (data : Int) : Option (Writes 32) := do
  assertAligned 4 data 16
  let w1 ← _mm_store_si128 data self.val
  some w1

/-- `store_nt` (detail/short_vec_sse_int_4.hpp:221-226) -/
def store_nt (E : FEnv) (self : V) (data : Int) : Option (Writes 32) := do
  assertAligned 4 data 16
  let w1 ← _mm_stream_si128 data self.val
  some w1

/-- `gather` (detail/short_vec_sse_int_4.hpp:229-236; avx512f, avx, avx2, sse41) -/
def gather_avx512f (E : FEnv) (m : Mem 32) (mo : Mem 32) (self : V) (ptr : Int) (offsets : Int) : Option V := do
  let t1 ← mo (offsets + 0)
  let t2 ← m (ptr + t1.toInt)
  let val : M128i := _mm_insert_epi32 self.val t2 0
  let t3 ← mo (offsets + 1)
  let t4 ← m (ptr + t3.toInt)
  let val : M128i := _mm_insert_epi32 val t4 1
  let t5 ← mo (offsets + 2)
  let t6 ← m (ptr + t5.toInt)
  let val : M128i := _mm_insert_epi32 val t6 2
  let t7 ← mo (offsets + 3)
  let t8 ← m (ptr + t7.toInt)
  let val : M128i := _mm_insert_epi32 val t8 3
  some ⟨val⟩

/-- `gather` (detail/short_vec_sse_int_4.hpp:247-258; sse, sse2) -/
def gather_sse (E : FEnv) (m : Mem 32) (mo : Mem 32) (self : V) (ptr : Int) (offsets : Int) : Option V := do
  let i2 : M128i := (uninit : M128i)
  let i3 : M128i := (uninit : M128i)
  let i4 : M128i := (uninit : M128i)
  let t1 ← mo (offsets + 0)
  let t2 ← m (ptr + t1.toInt)
  let val : M128i := _mm_cvtsi32_si128 t2
  let t3 ← mo (offsets + 1)
  let t4 ← m (ptr + t3.toInt)
  let i2 : M128i := _mm_cvtsi32_si128 t4
  let t5 ← mo (offsets + 2)
  let t6 ← m (ptr + t5.toInt)
  let i3 : M128i := _mm_cvtsi32_si128 t6
  let t7 ← mo (offsets + 3)
  let t8 ← m (ptr + t7.toInt)
  let i4 : M128i := _mm_cvtsi32_si128 t8
  let val : M128i := _mm_unpacklo_epi32 val i3
  let i3 : M128i := _mm_unpacklo_epi32 i2 i4
  let val : M128i := _mm_unpacklo_epi32 val i3
  some ⟨val⟩

/-- `scatter` (detail/short_vec_sse_int_4.hpp:238-245; avx512f, avx, avx2, sse41) -/
def scatter_avx512f (E : FEnv) (mo : Mem 32) (self : V) (ptr : Int) (offsets : Int) : Option (Writes 32) := do
  let t1 ← mo (offsets + 0)
  let t2 ← mo (offsets + 1)
  let t3 ← mo (offsets + 2)
  let t4 ← mo (offsets + 3)
  some ([(ptr + t1.toInt, _mm_extract_epi32 self.val 0)] ++ [(ptr + t2.toInt, _mm_extract_epi32 self.val 1)] ++ [(ptr +
      t3.toInt, _mm_extract_epi32 self.val 2)] ++ [(ptr + t4.toInt, _mm_extract_epi32 self.val 3)])

/-- `scatter` (detail/short_vec_sse_int_4.hpp:260-267; sse, sse2) -/
def scatter_sse (E : FEnv) (mo : Mem 32) (self : V) (ptr : Int) (offsets : Int) : Option (Writes 32) := do
  let t1 ← mo (offsets + 0)
  let t2 ← mo (offsets + 1)
  let t3 ← mo (offsets + 2)
  let t4 ← mo (offsets + 3)
  some ([(ptr + t1.toInt, _mm_cvtsi128_si32 self.val)] ++ [(ptr + t2.toInt, _mm_cvtsi128_si32 (_mm_shuffle_epi32 self.val
      (_MM_SHUFFLE 0 3 2 1)))] ++ [(ptr + t3.toInt, _mm_cvtsi128_si32 (_mm_shuffle_epi32 self.val (_MM_SHUFFLE 1 0 3 2)))] ++
      [(ptr + t4.toInt, _mm_cvtsi128_si32 (_mm_shuffle_epi32 self.val (_MM_SHUFFLE 2 1 0 3)))])

/-- `operator<<`, free function (detail/short_vec_sse_int_4.hpp:274-278) -/
def opStore (E : FEnv) (data : Int) (vec : V) : Option (Writes 32) := do
  let w1 ← store E vec data
  some w1

/-- `operator/=` of `sqrt_reference` (detail/short_vec_sse_int_4.hpp:306-312) -/
def opDivAssignSqrt (E : FEnv) (self : V) (other : SqrtRef) : V :=
  let val : M128i := _mm_cvtps_epi32 E (_mm_mul_ps E (_mm_cvtepi32_ps E self.val) (_mm_rsqrt_ps E (_mm_cvtepi32_ps E
      other.vec.val)))
  ⟨val⟩

/-- `operator/` of `sqrt_reference` (detail/short_vec_sse_int_4.hpp:314-321) -/
def opDivSqrt (E : FEnv) (self : V) (other : SqrtRef) : V :=
  ofRegs E (_mm_cvtps_epi32 E (_mm_mul_ps E (_mm_cvtepi32_ps E self.val) (_mm_rsqrt_ps E (_mm_cvtepi32_ps E other.vec.val))))

/-- `sqrt`, free function (detail/short_vec_sse_int_4.hpp:323-327) -/
def sqrtFn (E : FEnv) (vec : V) : SqrtRef := SqrtRef.mk vec

/-- `operator<<`, free function (detail/short_vec_sse_int_4.hpp:329-337) -/
def print (E : FEnv) (vec : V) : List (Out 32) :=
  [.s "[", .v vec.val.x0, .s ", ", .v vec.val.x1, .s ", ", .v vec.val.x2, .s ", ", .v vec.val.x3, .s "]"]

end LFA.SV.SseInt4

namespace LFA.SV.SseInt8

/-- members of `short_vec<int, 8>` (detail/short_vec_sse_int_8.hpp:59) -/
structure V where
  val0 : M128i
  val1 : M128i

/-- lanes, from low to high -/
def V.lanes (v : V) : List (BitVec 32) := SV.lanes v.val0 ++ (SV.lanes v.val1)

/-- `sqrt_reference<int, 8>`: keeps the vector until the square root is needed -/
structure SqrtRef where
  vec : V

/-- constructor (detail/short_vec_sse_int_8.hpp:71-75) -/
def bcast (E : FEnv) (data : BitVec 32) : V := ⟨_mm_set1_epi32 data, _mm_set1_epi32 data⟩

/-- constructor (detail/short_vec_sse_int_8.hpp:83-87) -/
def ofRegs (E : FEnv) (val1 : M128i) (val2 : M128i) : V := ⟨val1, val2⟩

/-- `load` (detail/short_vec_sse_int_8.hpp:225-230) -/
def load (E : FEnv) (m : Mem 32) (self : V) (data : Int) : Option V := do
  let t1 ← _mm_loadu_si128 m (data + 0)
  let val0 : M128i := t1
  let t2 ← _mm_loadu_si128 m (data + 4)
  let val1 : M128i := t2
  some ⟨val0, val1⟩

/-- `store` (detail/short_vec_sse_int_8.hpp:240-245) -/
def store (E : FEnv) (self : V) (data : Int) : Option (Writes 32) := do
  let w1 ← _mm_storeu_si128 (data + 0) self.val0
  let w2 ← _mm_storeu_si128 (data + 4) self.val1
  some (w1 ++ w2)

/-- `sqrt` (detail/short_vec_sse_int_8.hpp:215-223) -/
def sqrt (E : FEnv) (self : V) : V :=
  ofRegs E (_mm_cvtps_epi32 E (_mm_sqrt_ps E (_mm_cvtepi32_ps E self.val0))) (_mm_cvtps_epi32 E (_mm_sqrt_ps E (_mm_cvtepi32_ps
      E self.val1)))

/-- constructor of `sqrt_reference` (detail/short_vec_sse_int_8.hpp:357-363) -/
def ofSqrt (E : FEnv) (other : SqrtRef) : V :=
  ⟨_mm_cvtps_epi32 E (_mm_sqrt_ps E (_mm_cvtepi32_ps E other.vec.val0)), _mm_cvtps_epi32 E (_mm_sqrt_ps E (_mm_cvtepi32_ps E
      other.vec.val1))⟩

/-- constructor (detail/short_vec_sse_int_8.hpp:77-81) -/
def ofPtr (E : FEnv) (m : Mem 32) (data : Int) : Option V := do
  let v1 ← load E m ⟨(uninit : M128i), (uninit : M128i)⟩ data
  some ⟨v1.val0, v1.val1⟩

/-- constructor (detail/short_vec_sse_int_8.hpp:90-95) -/
def ofList (E : FEnv) (m : Mem 32) (il : Int) : Option V := do
  let v1 ← load E m ⟨(uninit : M128i), (uninit : M128i)⟩ il
  some ⟨v1.val0, v1.val1⟩

/-- `operator-=` (detail/short_vec_sse_int_8.hpp:101-106) -/
def opSubAssign (E : FEnv) (self : V) (other : V) : V :=
  let val0 : M128i := _mm_sub_epi32 self.val0 other.val0
  let val1 : M128i := _mm_sub_epi32 self.val1 other.val1
  ⟨val0, val1⟩

/-- `operator-` (detail/short_vec_sse_int_8.hpp:108-114) -/
def opSub (E : FEnv) (self : V) (other : V) : V :=
  ofRegs E (_mm_sub_epi32 self.val0 other.val0) (_mm_sub_epi32 self.val1 other.val1)

/-- `operator+=` (detail/short_vec_sse_int_8.hpp:116-121) -/
def opAddAssign (E : FEnv) (self : V) (other : V) : V :=
  let val0 : M128i := _mm_add_epi32 self.val0 other.val0
  let val1 : M128i := _mm_add_epi32 self.val1 other.val1
  ⟨val0, val1⟩

/-- `operator+` (detail/short_vec_sse_int_8.hpp:123-129) -/
def opAdd (E : FEnv) (self : V) (other : V) : V :=
  ofRegs E (_mm_add_epi32 self.val0 other.val0) (_mm_add_epi32 self.val1 other.val1)

/-- `operator*=` (detail/short_vec_sse_int_8.hpp:132-137; avx, sse41) -/
def opMulAssign_avx (E : FEnv) (self : V) (other : V) : V :=
  let val0 : M128i := _mm_mullo_epi32 self.val0 other.val0
  let val1 : M128i := _mm_mullo_epi32 self.val1 other.val1
  ⟨val0, val1⟩

/-- `operator*=` (detail/short_vec_sse_int_8.hpp:147-164; sse, sse2) -/
def opMulAssign_sse (E : FEnv) (self : V) (other : V) : V :=
  let tmp1 : M128i := _mm_mul_epu32 self.val0 other.val0
  let tmp2 : M128i := _mm_mul_epu32 (_mm_srli_si128 self.val0 4) (_mm_srli_si128 other.val0 4)
  let val0 : M128i := _mm_unpacklo_epi32 (_mm_shuffle_epi32 tmp1 (_MM_SHUFFLE 0 0 2 0)) (_mm_shuffle_epi32 tmp2 (_MM_SHUFFLE 0
      0 2 0))
  let tmp1 : M128i := _mm_mul_epu32 self.val1 other.val1
  let tmp2 : M128i := _mm_mul_epu32 (_mm_srli_si128 self.val1 4) (_mm_srli_si128 other.val1 4)
  let val1 : M128i := _mm_unpacklo_epi32 (_mm_shuffle_epi32 tmp1 (_MM_SHUFFLE 0 0 2 0)) (_mm_shuffle_epi32 tmp2 (_MM_SHUFFLE 0
      0 2 0))
  ⟨val0, val1⟩

/-- `operator*` (detail/short_vec_sse_int_8.hpp:139-145; avx, sse41) -/
def opMul_avx (E : FEnv) (self : V) (other : V) : V :=
  ofRegs E (_mm_mullo_epi32 self.val0 other.val0) (_mm_mullo_epi32 self.val1 other.val1)

/-- `operator*` (detail/short_vec_sse_int_8.hpp:166-185; sse, sse2) -/
def opMul_sse (E : FEnv) (self : V) (other : V) : V :=
  let tmp1 : M128i := _mm_mul_epu32 self.val0 other.val0
  let tmp2 : M128i := _mm_mul_epu32 (_mm_srli_si128 self.val0 4) (_mm_srli_si128 other.val0 4)
  let result1 : M128i := _mm_unpacklo_epi32 (_mm_shuffle_epi32 tmp1 (_MM_SHUFFLE 0 0 2 0)) (_mm_shuffle_epi32 tmp2 (_MM_SHUFFLE
      0 0 2 0))
  let tmp1 : M128i := _mm_mul_epu32 self.val1 other.val1
  let tmp2 : M128i := _mm_mul_epu32 (_mm_srli_si128 self.val1 4) (_mm_srli_si128 other.val1 4)
  let result2 : M128i := _mm_unpacklo_epi32 (_mm_shuffle_epi32 tmp1 (_MM_SHUFFLE 0 0 2 0)) (_mm_shuffle_epi32 tmp2 (_MM_SHUFFLE
      0 0 2 0))
  ofRegs E result1 result2

/-- `operator/=` (detail/short_vec_sse_int_8.hpp:188-195) -/
def opDivAssign (E : FEnv) (self : V) (other : V) : V :=
  let val0 : M128i := _mm_cvttps_epi32 E (_mm_div_ps E (_mm_cvtepi32_ps E self.val0) (_mm_cvtepi32_ps E other.val0))
  let val1 : M128i := _mm_cvttps_epi32 E (_mm_div_ps E (_mm_cvtepi32_ps E self.val1) (_mm_cvtepi32_ps E other.val1))
  ⟨val0, val1⟩

/-- `operator/` (detail/short_vec_sse_int_8.hpp:200-210) -/
def opDiv (E : FEnv) (self : V) (other : V) : V :=
  ofRegs E (_mm_cvttps_epi32 E (_mm_div_ps E (_mm_cvtepi32_ps E self.val0) (_mm_cvtepi32_ps E other.val0))) (_mm_cvttps_epi32 E
      (_mm_div_ps E (_mm_cvtepi32_ps E self.val1) (_mm_cvtepi32_ps E other.val1)))

/-- `load_aligned` (detail/short_vec_sse_int_8.hpp:232-238) -/
def load_aligned (E : FEnv) (m : Mem 32) (self : V) (data : Int) : Option V := do
  assertAligned 4 data 16
  let t1 ← _mm_load_si128 m (data + 0)
  let val0 : M128i := t1
  let t2 ← _mm_load_si128 m (data + 4)
  let val1 : M128i := t2
  some ⟨val0, val1⟩

/-- `store_aligned` (detail/short_vec_sse_int_8.hpp:247-253) -/
def store_aligned (E : FEnv) (self : V) (data : Int) : Option (Writes 32) := do
  assertAligned 4 data 16
  let w1 ← _mm_store_si128 (data + 0) self.val0
  let w2 ← _mm_store_si128 (data + 4) self.val1
  some (w1 ++ w2)

/-- `store_nt` (detail/short_vec_sse_int_8.hpp:255-261) -/
def store_nt (E : FEnv) (self : V) (data : Int) : Option (Writes 32) := do
  assertAligned 4 data 16
  let w1 ← _mm_stream_si128 (data + 0) self.val0
  let w2 ← _mm_stream_si128 (data + 4) self.val1
  some (w1 ++ w2)

/-- `gather` (detail/short_vec_sse_int_8.hpp:264-276; avx, sse41) -/
def gather_avx (E : FEnv) (m : Mem 32) (mo : Mem 32) (self : V) (ptr : Int) (offsets : Int) : Option V := do
  let t1 ← mo (offsets + 0)
  let t2 ← m (ptr + t1.toInt)
  let val0 : M128i := _mm_insert_epi32 self.val0 t2 0
  let t3 ← mo (offsets + 1)
  let t4 ← m (ptr + t3.toInt)
  let val0 : M128i := _mm_insert_epi32 val0 t4 1
  let t5 ← mo (offsets + 2)
  let t6 ← m (ptr + t5.toInt)
  let val0 : M128i := _mm_insert_epi32 val0 t6 2
  let t7 ← mo (offsets + 3)
  let t8 ← m (ptr + t7.toInt)
  let val0 : M128i := _mm_insert_epi32 val0 t8 3
  let t9 ← mo (offsets + 4)
  let t10 ← m (ptr + t9.toInt)
  let val1 : M128i := _mm_insert_epi32 self.val1 t10 0
  let t11 ← mo (offsets + 5)
  let t12 ← m (ptr + t11.toInt)
  let val1 : M128i := _mm_insert_epi32 val1 t12 1
  let t13 ← mo (offsets + 6)
  let t14 ← m (ptr + t13.toInt)
  let val1 : M128i := _mm_insert_epi32 val1 t14 2
  let t15 ← mo (offsets + 7)
  let t16 ← m (ptr + t15.toInt)
  let val1 : M128i := _mm_insert_epi32 val1 t16 3
  some ⟨val0, val1⟩

/-- `gather` (detail/short_vec_sse_int_8.hpp:292-311; sse, sse2) -/
def gather_sse (E : FEnv) (m : Mem 32) (mo : Mem 32) (self : V) (ptr : Int) (offsets : Int) : Option V := do
  let i2 : M128i := (uninit : M128i)
  let i3 : M128i := (uninit : M128i)
  let i4 : M128i := (uninit : M128i)
  let t1 ← mo (offsets + 0)
  let t2 ← m (ptr + t1.toInt)
  let val0 : M128i := _mm_cvtsi32_si128 t2
  let t3 ← mo (offsets + 1)
  let t4 ← m (ptr + t3.toInt)
  let i2 : M128i := _mm_cvtsi32_si128 t4
  let t5 ← mo (offsets + 2)
  let t6 ← m (ptr + t5.toInt)
  let i3 : M128i := _mm_cvtsi32_si128 t6
  let t7 ← mo (offsets + 3)
  let t8 ← m (ptr + t7.toInt)
  let i4 : M128i := _mm_cvtsi32_si128 t8
  let val0 : M128i := _mm_unpacklo_epi32 val0 i3
  let i3 : M128i := _mm_unpacklo_epi32 i2 i4
  let val0 : M128i := _mm_unpacklo_epi32 val0 i3
  let t9 ← mo (offsets + 4)
  let t10 ← m (ptr + t9.toInt)
  let val1 : M128i := _mm_cvtsi32_si128 t10
  let t11 ← mo (offsets + 5)
  let t12 ← m (ptr + t11.toInt)
  let i2 : M128i := _mm_cvtsi32_si128 t12
  let t13 ← mo (offsets + 6)
  let t14 ← m (ptr + t13.toInt)
  let i3 : M128i := _mm_cvtsi32_si128 t14
  let t15 ← mo (offsets + 7)
  let t16 ← m (ptr + t15.toInt)
  let i4 : M128i := _mm_cvtsi32_si128 t16
  let val1 : M128i := _mm_unpacklo_epi32 val1 i3
  let i3 : M128i := _mm_unpacklo_epi32 i2 i4
  let val1 : M128i := _mm_unpacklo_epi32 val1 i3
  some ⟨val0, val1⟩

/-- `scatter` (detail/short_vec_sse_int_8.hpp:278-290; avx, sse41) -/
def scatter_avx (E : FEnv) (mo : Mem 32) (self : V) (ptr : Int) (offsets : Int) : Option (Writes 32) := do
  let t1 ← mo (offsets + 0)
  let t2 ← mo (offsets + 1)
  let t3 ← mo (offsets + 2)
  let t4 ← mo (offsets + 3)
  let t5 ← mo (offsets + 4)
  let t6 ← mo (offsets + 5)
  let t7 ← mo (offsets + 6)
  let t8 ← mo (offsets + 7)
  some ([(ptr + t1.toInt, _mm_extract_epi32 self.val0 0)] ++ [(ptr + t2.toInt, _mm_extract_epi32 self.val0 1)] ++ [(ptr +
      t3.toInt, _mm_extract_epi32 self.val0 2)] ++ [(ptr + t4.toInt, _mm_extract_epi32 self.val0 3)] ++ [(ptr + t5.toInt,
      _mm_extract_epi32 self.val1 0)] ++ [(ptr + t6.toInt, _mm_extract_epi32 self.val1 1)] ++ [(ptr + t7.toInt,
      _mm_extract_epi32 self.val1 2)] ++ [(ptr + t8.toInt, _mm_extract_epi32 self.val1 3)])

/-- `scatter` (detail/short_vec_sse_int_8.hpp:313-325; sse, sse2) -/
def scatter_sse (E : FEnv) (mo : Mem 32) (self : V) (ptr : Int) (offsets : Int) : Option (Writes 32) := do
  let t1 ← mo (offsets + 0)
  let t2 ← mo (offsets + 1)
  let t3 ← mo (offsets + 2)
  let t4 ← mo (offsets + 3)
  let t5 ← mo (offsets + 4)
  let t6 ← mo (offsets + 5)
  let t7 ← mo (offsets + 6)
  let t8 ← mo (offsets + 7)
  some ([(ptr + t1.toInt, _mm_cvtsi128_si32 self.val0)] ++ [(ptr + t2.toInt, _mm_cvtsi128_si32 (_mm_shuffle_epi32 self.val0
      (_MM_SHUFFLE 0 3 2 1)))] ++ [(ptr + t3.toInt, _mm_cvtsi128_si32 (_mm_shuffle_epi32 self.val0 (_MM_SHUFFLE 1 0 3 2)))] ++
      [(ptr + t4.toInt, _mm_cvtsi128_si32 (_mm_shuffle_epi32 self.val0 (_MM_SHUFFLE 2 1 0 3)))] ++ [(ptr + t5.toInt,
      _mm_cvtsi128_si32 self.val1)] ++ [(ptr + t6.toInt, _mm_cvtsi128_si32 (_mm_shuffle_epi32 self.val1 (_MM_SHUFFLE 0 3 2
      1)))] ++ [(ptr + t7.toInt, _mm_cvtsi128_si32 (_mm_shuffle_epi32 self.val1 (_MM_SHUFFLE 1 0 3 2)))] ++ [(ptr + t8.toInt,
      _mm_cvtsi128_si32 (_mm_shuffle_epi32 self.val1 (_MM_SHUFFLE 2 1 0 3)))])

/-- `operator<<`, free function (detail/short_vec_sse_int_8.hpp:332-336) -/
def opStore (E : FEnv) (data : Int) (vec : V) : Option (Writes 32) := do
  let w1 ← store E vec data
  some w1

/-- `operator/=` of `sqrt_reference` (detail/short_vec_sse_int_8.hpp:365-374) -/
def opDivAssignSqrt (E : FEnv) (self : V) (other : SqrtRef) : V :=
  let val0 : M128i := _mm_cvtps_epi32 E (_mm_mul_ps E (_mm_cvtepi32_ps E self.val0) (_mm_rsqrt_ps E (_mm_cvtepi32_ps E
      other.vec.val0)))
  let val1 : M128i := _mm_cvtps_epi32 E (_mm_mul_ps E (_mm_cvtepi32_ps E self.val1) (_mm_rsqrt_ps E (_mm_cvtepi32_ps E
      other.vec.val1)))
  ⟨val0, val1⟩

/-- `operator/` of `sqrt_reference` (detail/short_vec_sse_int_8.hpp:376-386) -/
def opDivSqrt (E : FEnv) (self : V) (other : SqrtRef) : V :=
  ofRegs E (_mm_cvtps_epi32 E (_mm_mul_ps E (_mm_cvtepi32_ps E self.val0) (_mm_rsqrt_ps E (_mm_cvtepi32_ps E other.vec.val0))))
      (_mm_cvtps_epi32 E (_mm_mul_ps E (_mm_cvtepi32_ps E self.val1) (_mm_rsqrt_ps E (_mm_cvtepi32_ps E other.vec.val1))))

/-- `sqrt`, free function (detail/short_vec_sse_int_8.hpp:388-392) -/
def sqrtFn (E : FEnv) (vec : V) : SqrtRef := SqrtRef.mk vec

/-- `operator<<`, free function (detail/short_vec_sse_int_8.hpp:394-406) -/
def print (E : FEnv) (vec : V) : List (Out 32) :=
  [.s "[", .v vec.val0.x0, .s ", ", .v vec.val0.x1, .s ", ", .v vec.val0.x2, .s ", ", .v vec.val0.x3, .s ", ", .v vec.val1.x0,
      .s ", ", .v vec.val1.x1, .s ", ", .v vec.val1.x2, .s ", ", .v vec.val1.x3, .s "]"]

end LFA.SV.SseInt8

namespace LFA.SV.SseInt16

/-- members of `short_vec<int, 16>` (detail/short_vec_sse_int_16.hpp:59) -/
structure V where
  val0 : M128i
  val1 : M128i
  val2 : M128i
  val3 : M128i

/-- lanes, from low to high -/
def V.lanes (v : V) : List (BitVec 32) := SV.lanes v.val0 ++ (SV.lanes v.val1 ++ (SV.lanes v.val2 ++ (SV.lanes v.val3)))

/-- `sqrt_reference<int, 16>`: keeps the vector until the square root is needed -/
structure SqrtRef where
  vec : V

/-- constructor (detail/short_vec_sse_int_16.hpp:71-77) -/
def bcast (E : FEnv) (data : BitVec 32) : V :=
  ⟨_mm_set1_epi32 data, _mm_set1_epi32 data, _mm_set1_epi32 data, _mm_set1_epi32 data⟩

/-- constructor (detail/short_vec_sse_int_16.hpp:85-95) -/
def ofRegs (E : FEnv) (val1 : M128i) (val2 : M128i) (val3 : M128i) (val4 : M128i) : V := ⟨val1, val2, val3, val4⟩

/-- `load` (detail/short_vec_sse_int_16.hpp:287-294) -/
def load (E : FEnv) (m : Mem 32) (self : V) (data : Int) : Option V := do
  let t1 ← _mm_loadu_si128 m (data + 0)
  let val0 : M128i := t1
  let t2 ← _mm_loadu_si128 m (data + 4)
  let val1 : M128i := t2
  let t3 ← _mm_loadu_si128 m (data + 8)
  let val2 : M128i := t3
  let t4 ← _mm_loadu_si128 m (data + 12)
  let val3 : M128i := t4
  some ⟨val0, val1, val2, val3⟩

/-- `store` (detail/short_vec_sse_int_16.hpp:306-313) -/
def store (E : FEnv) (self : V) (data : Int) : Option (Writes 32) := do
  let w1 ← _mm_storeu_si128 (data + 0) self.val0
  let w2 ← _mm_storeu_si128 (data + 4) self.val1
  let w3 ← _mm_storeu_si128 (data + 8) self.val2
  let w4 ← _mm_storeu_si128 (data + 12) self.val3
  some (w1 ++ w2 ++ w3 ++ w4)

/-- `sqrt` (detail/short_vec_sse_int_16.hpp:273-285) -/
def sqrt (E : FEnv) (self : V) : V :=
  ofRegs E (_mm_cvtps_epi32 E (_mm_sqrt_ps E (_mm_cvtepi32_ps E self.val0))) (_mm_cvtps_epi32 E (_mm_sqrt_ps E (_mm_cvtepi32_ps
      E self.val1))) (_mm_cvtps_epi32 E (_mm_sqrt_ps E (_mm_cvtepi32_ps E self.val2))) (_mm_cvtps_epi32 E (_mm_sqrt_ps E
      (_mm_cvtepi32_ps E self.val3)))

/-- constructor of `sqrt_reference` (detail/short_vec_sse_int_16.hpp:475-486) -/
def ofSqrt (E : FEnv) (other : SqrtRef) : V :=
  ⟨_mm_cvtps_epi32 E (_mm_sqrt_ps E (_mm_cvtepi32_ps E other.vec.val0)), _mm_cvtps_epi32 E (_mm_sqrt_ps E (_mm_cvtepi32_ps E
      other.vec.val1)), _mm_cvtps_epi32 E (_mm_sqrt_ps E (_mm_cvtepi32_ps E other.vec.val2)), _mm_cvtps_epi32 E (_mm_sqrt_ps E
      (_mm_cvtepi32_ps E other.vec.val3))⟩

/-- constructor (detail/short_vec_sse_int_16.hpp:79-83) -/
def ofPtr (E : FEnv) (m : Mem 32) (data : Int) : Option V := do
  let v1 ← load E m ⟨(uninit : M128i), (uninit : M128i), (uninit : M128i), (uninit : M128i)⟩ data
  some ⟨v1.val0, v1.val1, v1.val2, v1.val3⟩

/-- constructor (detail/short_vec_sse_int_16.hpp:98-103) -/
def ofList (E : FEnv) (m : Mem 32) (il : Int) : Option V := do
  let v1 ← load E m ⟨(uninit : M128i), (uninit : M128i), (uninit : M128i), (uninit : M128i)⟩ il
  some ⟨v1.val0, v1.val1, v1.val2, v1.val3⟩

/-- `operator-=` (detail/short_vec_sse_int_16.hpp:109-116) -/
def opSubAssign (E : FEnv) (self : V) (other : V) : V :=
  let val0 : M128i := _mm_sub_epi32 self.val0 other.val0
  let val1 : M128i := _mm_sub_epi32 self.val1 other.val1
  let val2 : M128i := _mm_sub_epi32 self.val2 other.val2
  let val3 : M128i := _mm_sub_epi32 self.val3 other.val3
  ⟨val0, val1, val2, val3⟩

/-- `operator-` (detail/short_vec_sse_int_16.hpp:118-126) -/
def opSub (E : FEnv) (self : V) (other : V) : V :=
  ofRegs E (_mm_sub_epi32 self.val0 other.val0) (_mm_sub_epi32 self.val1 other.val1) (_mm_sub_epi32 self.val2 other.val2)
      (_mm_sub_epi32 self.val3 other.val3)

/-- `operator+=` (detail/short_vec_sse_int_16.hpp:128-135) -/
def opAddAssign (E : FEnv) (self : V) (other : V) : V :=
  let val0 : M128i := _mm_add_epi32 self.val0 other.val0
  let val1 : M128i := _mm_add_epi32 self.val1 other.val1
  let val2 : M128i := _mm_add_epi32 self.val2 other.val2
  let val3 : M128i := _mm_add_epi32 self.val3 other.val3
  ⟨val0, val1, val2, val3⟩

/-- `operator+` (detail/short_vec_sse_int_16.hpp:137-145) -/
def opAdd (E : FEnv) (self : V) (other : V) : V :=
  ofRegs E (_mm_add_epi32 self.val0 other.val0) (_mm_add_epi32 self.val1 other.val1) (_mm_add_epi32 self.val2 other.val2)
      (_mm_add_epi32 self.val3 other.val3)

/-- `operator*=` (detail/short_vec_sse_int_16.hpp:148-155; avx, sse41) -/
def opMulAssign_avx (E : FEnv) (self : V) (other : V) : V :=
  let val0 : M128i := _mm_mullo_epi32 self.val0 other.val0
  let val1 : M128i := _mm_mullo_epi32 self.val1 other.val1
  let val2 : M128i := _mm_mullo_epi32 self.val2 other.val2
  let val3 : M128i := _mm_mullo_epi32 self.val3 other.val3
  ⟨val0, val1, val2, val3⟩

/-- `operator*=` (detail/short_vec_sse_int_16.hpp:167-198; sse, sse2) -/
def opMulAssign_sse (E : FEnv) (self : V) (other : V) : V :=
  let tmp1 : M128i := _mm_mul_epu32 self.val0 other.val0
  let tmp2 : M128i := _mm_mul_epu32 (_mm_srli_si128 self.val0 4) (_mm_srli_si128 other.val0 4)
  let val0 : M128i := _mm_unpacklo_epi32 (_mm_shuffle_epi32 tmp1 (_MM_SHUFFLE 0 0 2 0)) (_mm_shuffle_epi32 tmp2 (_MM_SHUFFLE 0
      0 2 0))
  let tmp1 : M128i := _mm_mul_epu32 self.val1 other.val1
  let tmp2 : M128i := _mm_mul_epu32 (_mm_srli_si128 self.val1 4) (_mm_srli_si128 other.val1 4)
  let val1 : M128i := _mm_unpacklo_epi32 (_mm_shuffle_epi32 tmp1 (_MM_SHUFFLE 0 0 2 0)) (_mm_shuffle_epi32 tmp2 (_MM_SHUFFLE 0
      0 2 0))
  let tmp1 : M128i := _mm_mul_epu32 self.val2 other.val2
  let tmp2 : M128i := _mm_mul_epu32 (_mm_srli_si128 self.val2 4) (_mm_srli_si128 other.val2 4)
  let val2 : M128i := _mm_unpacklo_epi32 (_mm_shuffle_epi32 tmp1 (_MM_SHUFFLE 0 0 2 0)) (_mm_shuffle_epi32 tmp2 (_MM_SHUFFLE 0
      0 2 0))
  let tmp1 : M128i := _mm_mul_epu32 self.val3 other.val3
  let tmp2 : M128i := _mm_mul_epu32 (_mm_srli_si128 self.val3 4) (_mm_srli_si128 other.val3 4)
  let val3 : M128i := _mm_unpacklo_epi32 (_mm_shuffle_epi32 tmp1 (_MM_SHUFFLE 0 0 2 0)) (_mm_shuffle_epi32 tmp2 (_MM_SHUFFLE 0
      0 2 0))
  ⟨val0, val1, val2, val3⟩

/-- `operator*` (detail/short_vec_sse_int_16.hpp:157-165; avx, sse41) -/
def opMul_avx (E : FEnv) (self : V) (other : V) : V :=
  ofRegs E (_mm_mullo_epi32 self.val0 other.val0) (_mm_mullo_epi32 self.val1 other.val1) (_mm_mullo_epi32 self.val2 other.val2)
      (_mm_mullo_epi32 self.val3 other.val3)

/-- `operator*` (detail/short_vec_sse_int_16.hpp:200-233; sse, sse2) -/
def opMul_sse (E : FEnv) (self : V) (other : V) : V :=
  let tmp1 : M128i := _mm_mul_epu32 self.val0 other.val0
  let tmp2 : M128i := _mm_mul_epu32 (_mm_srli_si128 self.val0 4) (_mm_srli_si128 other.val0 4)
  let result1 : M128i := _mm_unpacklo_epi32 (_mm_shuffle_epi32 tmp1 (_MM_SHUFFLE 0 0 2 0)) (_mm_shuffle_epi32 tmp2 (_MM_SHUFFLE
      0 0 2 0))
  let tmp1 : M128i := _mm_mul_epu32 self.val1 other.val1
  let tmp2 : M128i := _mm_mul_epu32 (_mm_srli_si128 self.val1 4) (_mm_srli_si128 other.val1 4)
  let result2 : M128i := _mm_unpacklo_epi32 (_mm_shuffle_epi32 tmp1 (_MM_SHUFFLE 0 0 2 0)) (_mm_shuffle_epi32 tmp2 (_MM_SHUFFLE
      0 0 2 0))
  let tmp1 : M128i := _mm_mul_epu32 self.val2 other.val2
  let tmp2 : M128i := _mm_mul_epu32 (_mm_srli_si128 self.val2 4) (_mm_srli_si128 other.val2 4)
  let result3 : M128i := _mm_unpacklo_epi32 (_mm_shuffle_epi32 tmp1 (_MM_SHUFFLE 0 0 2 0)) (_mm_shuffle_epi32 tmp2 (_MM_SHUFFLE
      0 0 2 0))
  let tmp1 : M128i := _mm_mul_epu32 self.val3 other.val3
  let tmp2 : M128i := _mm_mul_epu32 (_mm_srli_si128 self.val3 4) (_mm_srli_si128 other.val3 4)
  let result4 : M128i := _mm_unpacklo_epi32 (_mm_shuffle_epi32 tmp1 (_MM_SHUFFLE 0 0 2 0)) (_mm_shuffle_epi32 tmp2 (_MM_SHUFFLE
      0 0 2 0))
  ofRegs E result1 result2 result3 result4

/-- `operator/=` (detail/short_vec_sse_int_16.hpp:236-247) -/
def opDivAssign (E : FEnv) (self : V) (other : V) : V :=
  let val0 : M128i := _mm_cvtps_epi32 E (_mm_div_ps E (_mm_cvtepi32_ps E self.val0) (_mm_cvtepi32_ps E other.val0))
  let val1 : M128i := _mm_cvtps_epi32 E (_mm_div_ps E (_mm_cvtepi32_ps E self.val1) (_mm_cvtepi32_ps E other.val1))
  let val2 : M128i := _mm_cvtps_epi32 E (_mm_div_ps E (_mm_cvtepi32_ps E self.val2) (_mm_cvtepi32_ps E other.val2))
  let val3 : M128i := _mm_cvtps_epi32 E (_mm_div_ps E (_mm_cvtepi32_ps E self.val3) (_mm_cvtepi32_ps E other.val3))
  ⟨val0, val1, val2, val3⟩

/-- `operator/` (detail/short_vec_sse_int_16.hpp:252-268) -/
def opDiv (E : FEnv) (self : V) (other : V) : V :=
  ofRegs E (_mm_cvttps_epi32 E (_mm_div_ps E (_mm_cvtepi32_ps E self.val0) (_mm_cvtepi32_ps E other.val0))) (_mm_cvttps_epi32 E
      (_mm_div_ps E (_mm_cvtepi32_ps E self.val1) (_mm_cvtepi32_ps E other.val1))) (_mm_cvttps_epi32 E (_mm_div_ps E
      (_mm_cvtepi32_ps E self.val2) (_mm_cvtepi32_ps E other.val2))) (_mm_cvttps_epi32 E (_mm_div_ps E (_mm_cvtepi32_ps E
      self.val3) (_mm_cvtepi32_ps E other.val3)))

/-- `load_aligned` (detail/short_vec_sse_int_16.hpp:296-304) -/
def load_aligned (E : FEnv) (m : Mem 32) (self : V) (data : Int) : Option V := do
  assertAligned 4 data 16
  let t1 ← _mm_load_si128 m (data + 0)
  let val0 : M128i := t1
  let t2 ← _mm_load_si128 m (data + 4)
  let val1 : M128i := t2
  let t3 ← _mm_load_si128 m (data + 8)
  let val2 : M128i := t3
  let t4 ← _mm_load_si128 m (data + 12)
  let val3 : M128i := t4
  some ⟨val0, val1, val2, val3⟩

/-- `store_aligned` (detail/short_vec_sse_int_16.hpp:315-323) -/
def store_aligned (E : FEnv) (self : V) (data : Int) : Option (Writes 32) := do
  assertAligned 4 data 16
  let w1 ← _mm_store_si128 (data + 0) self.val0
  let w2 ← _mm_store_si128 (data + 4) self.val1
  let w3 ← _mm_store_si128 (data + 8) self.val2
  let w4 ← _mm_store_si128 (data + 12) self.val3
  some (w1 ++ w2 ++ w3 ++ w4)

/-- `store_nt` (detail/short_vec_sse_int_16.hpp:325-333) -/
def store_nt (E : FEnv) (self : V) (data : Int) : Option (Writes 32) := do
  assertAligned 4 data 16
  let w1 ← _mm_stream_si128 (data + 0) self.val0
  let w2 ← _mm_stream_si128 (data + 4) self.val1
  let w3 ← _mm_stream_si128 (data + 8) self.val2
  let w4 ← _mm_stream_si128 (data + 12) self.val3
  some (w1 ++ w2 ++ w3 ++ w4)

/-- `gather` (detail/short_vec_sse_int_16.hpp:336-358; avx, sse41) -/
def gather_avx (E : FEnv) (m : Mem 32) (mo : Mem 32) (self : V) (ptr : Int) (offsets : Int) : Option V := do
  let t1 ← mo (offsets + 0)
  let t2 ← m (ptr + t1.toInt)
  let val0 : M128i := _mm_insert_epi32 self.val0 t2 0
  let t3 ← mo (offsets + 1)
  let t4 ← m (ptr + t3.toInt)
  let val0 : M128i := _mm_insert_epi32 val0 t4 1
  let t5 ← mo (offsets + 2)
  let t6 ← m (ptr + t5.toInt)
  let val0 : M128i := _mm_insert_epi32 val0 t6 2
  let t7 ← mo (offsets + 3)
  let t8 ← m (ptr + t7.toInt)
  let val0 : M128i := _mm_insert_epi32 val0 t8 3
  let t9 ← mo (offsets + 4)
  let t10 ← m (ptr + t9.toInt)
  let val1 : M128i := _mm_insert_epi32 self.val1 t10 0
  let t11 ← mo (offsets + 5)
  let t12 ← m (ptr + t11.toInt)
  let val1 : M128i := _mm_insert_epi32 val1 t12 1
  let t13 ← mo (offsets + 6)
  let t14 ← m (ptr + t13.toInt)
  let val1 : M128i := _mm_insert_epi32 val1 t14 2
  let t15 ← mo (offsets + 7)
  let t16 ← m (ptr + t15.toInt)
  let val1 : M128i := _mm_insert_epi32 val1 t16 3
  let t17 ← mo (offsets + 8)
  let t18 ← m (ptr + t17.toInt)
  let val2 : M128i := _mm_insert_epi32 self.val2 t18 0
  let t19 ← mo (offsets + 9)
  let t20 ← m (ptr + t19.toInt)
  let val2 : M128i := _mm_insert_epi32 val2 t20 1
  let t21 ← mo (offsets + 10)
  let t22 ← m (ptr + t21.toInt)
  let val2 : M128i := _mm_insert_epi32 val2 t22 2
  let t23 ← mo (offsets + 11)
  let t24 ← m (ptr + t23.toInt)
  let val2 : M128i := _mm_insert_epi32 val2 t24 3
  let t25 ← mo (offsets + 12)
  let t26 ← m (ptr + t25.toInt)
  let val3 : M128i := _mm_insert_epi32 self.val3 t26 0
  let t27 ← mo (offsets + 13)
  let t28 ← m (ptr + t27.toInt)
  let val3 : M128i := _mm_insert_epi32 val3 t28 1
  let t29 ← mo (offsets + 14)
  let t30 ← m (ptr + t29.toInt)
  let val3 : M128i := _mm_insert_epi32 val3 t30 2
  let t31 ← mo (offsets + 15)
  let t32 ← m (ptr + t31.toInt)
  let val3 : M128i := _mm_insert_epi32 val3 t32 3
  some ⟨val0, val1, val2, val3⟩

/-- `gather` (detail/short_vec_sse_int_16.hpp:384-419; sse, sse2) -/
def gather_sse (E : FEnv) (m : Mem 32) (mo : Mem 32) (self : V) (ptr : Int) (offsets : Int) : Option V := do
  let i2 : M128i := (uninit : M128i)
  let i3 : M128i := (uninit : M128i)
  let i4 : M128i := (uninit : M128i)
  let t1 ← mo (offsets + 0)
  let t2 ← m (ptr + t1.toInt)
  let val0 : M128i := _mm_cvtsi32_si128 t2
  let t3 ← mo (offsets + 1)
  let t4 ← m (ptr + t3.toInt)
  let i2 : M128i := _mm_cvtsi32_si128 t4
  let t5 ← mo (offsets + 2)
  let t6 ← m (ptr + t5.toInt)
  let i3 : M128i := _mm_cvtsi32_si128 t6
  let t7 ← mo (offsets + 3)
  let t8 ← m (ptr + t7.toInt)
  let i4 : M128i := _mm_cvtsi32_si128 t8
  let val0 : M128i := _mm_unpacklo_epi32 val0 i3
  let i3 : M128i := _mm_unpacklo_epi32 i2 i4
  let val0 : M128i := _mm_unpacklo_epi32 val0 i3
  let t9 ← mo (offsets + 4)
  let t10 ← m (ptr + t9.toInt)
  let val1 : M128i := _mm_cvtsi32_si128 t10
  let t11 ← mo (offsets + 5)
  let t12 ← m (ptr + t11.toInt)
  let i2 : M128i := _mm_cvtsi32_si128 t12
  let t13 ← mo (offsets + 6)
  let t14 ← m (ptr + t13.toInt)
  let i3 : M128i := _mm_cvtsi32_si128 t14
  let t15 ← mo (offsets + 7)
  let t16 ← m (ptr + t15.toInt)
  let i4 : M128i := _mm_cvtsi32_si128 t16
  let val1 : M128i := _mm_unpacklo_epi32 val1 i3
  let i3 : M128i := _mm_unpacklo_epi32 i2 i4
  let val1 : M128i := _mm_unpacklo_epi32 val1 i3
  let t17 ← mo (offsets + 8)
  let t18 ← m (ptr + t17.toInt)
  let val2 : M128i := _mm_cvtsi32_si128 t18
  let t19 ← mo (offsets + 9)
  let t20 ← m (ptr + t19.toInt)
  let i2 : M128i := _mm_cvtsi32_si128 t20
  let t21 ← mo (offsets + 10)
  let t22 ← m (ptr + t21.toInt)
  let i3 : M128i := _mm_cvtsi32_si128 t22
  let t23 ← mo (offsets + 11)
  let t24 ← m (ptr + t23.toInt)
  let i4 : M128i := _mm_cvtsi32_si128 t24
  let val2 : M128i := _mm_unpacklo_epi32 val2 i3
  let i3 : M128i := _mm_unpacklo_epi32 i2 i4
  let val2 : M128i := _mm_unpacklo_epi32 val2 i3
  let t25 ← mo (offsets + 12)
  let t26 ← m (ptr + t25.toInt)
  let val3 : M128i := _mm_cvtsi32_si128 t26
  let t27 ← mo (offsets + 13)
  let t28 ← m (ptr + t27.toInt)
  let i2 : M128i := _mm_cvtsi32_si128 t28
  let t29 ← mo (offsets + 14)
  let t30 ← m (ptr + t29.toInt)
  let i3 : M128i := _mm_cvtsi32_si128 t30
  let t31 ← mo (offsets + 15)
  let t32 ← m (ptr + t31.toInt)
  let i4 : M128i := _mm_cvtsi32_si128 t32
  let val3 : M128i := _mm_unpacklo_epi32 val3 i3
  let i3 : M128i := _mm_unpacklo_epi32 i2 i4
  let val3 : M128i := _mm_unpacklo_epi32 val3 i3
  some ⟨val0, val1, val2, val3⟩

/-- `scatter` (detail/short_vec_sse_int_16.hpp:360-382; avx, sse41) -/
def scatter_avx (E : FEnv) (mo : Mem 32) (self : V) (ptr : Int) (offsets : Int) : Option (Writes 32) := do
  let t1 ← mo (offsets + 0)
  let t2 ← mo (offsets + 1)
  let t3 ← mo (offsets + 2)
  let t4 ← mo (offsets + 3)
  let t5 ← mo (offsets + 4)
  let t6 ← mo (offsets + 5)
  let t7 ← mo (offsets + 6)
  let t8 ← mo (offsets + 7)
  let t9 ← mo (offsets + 8)
  let t10 ← mo (offsets + 9)
  let t11 ← mo (offsets + 10)
  let t12 ← mo (offsets + 11)
  let t13 ← mo (offsets + 12)
  let t14 ← mo (offsets + 13)
  let t15 ← mo (offsets + 14)
  let t16 ← mo (offsets + 15)
  some ([(ptr + t1.toInt, _mm_extract_epi32 self.val0 0)] ++ [(ptr + t2.toInt, _mm_extract_epi32 self.val0 1)] ++ [(ptr +
      t3.toInt, _mm_extract_epi32 self.val0 2)] ++ [(ptr + t4.toInt, _mm_extract_epi32 self.val0 3)] ++ [(ptr + t5.toInt,
      _mm_extract_epi32 self.val1 0)] ++ [(ptr + t6.toInt, _mm_extract_epi32 self.val1 1)] ++ [(ptr + t7.toInt,
      _mm_extract_epi32 self.val1 2)] ++ [(ptr + t8.toInt, _mm_extract_epi32 self.val1 3)] ++ [(ptr + t9.toInt,
      _mm_extract_epi32 self.val2 0)] ++ [(ptr + t10.toInt, _mm_extract_epi32 self.val2 1)] ++ [(ptr + t11.toInt,
      _mm_extract_epi32 self.val2 2)] ++ [(ptr + t12.toInt, _mm_extract_epi32 self.val2 3)] ++ [(ptr + t13.toInt,
      _mm_extract_epi32 self.val3 0)] ++ [(ptr + t14.toInt, _mm_extract_epi32 self.val3 1)] ++ [(ptr + t15.toInt,
      _mm_extract_epi32 self.val3 2)] ++ [(ptr + t16.toInt, _mm_extract_epi32 self.val3 3)])

/-- `scatter` (detail/short_vec_sse_int_16.hpp:421-443; sse, sse2) -/
def scatter_sse (E : FEnv) (mo : Mem 32) (self : V) (ptr : Int) (offsets : Int) : Option (Writes 32) := do
  let t1 ← mo (offsets + 0)
  let t2 ← mo (offsets + 1)
  let t3 ← mo (offsets + 2)
  let t4 ← mo (offsets + 3)
  let t5 ← mo (offsets + 4)
  let t6 ← mo (offsets + 5)
  let t7 ← mo (offsets + 6)
  let t8 ← mo (offsets + 7)
  let t9 ← mo (offsets + 8)
  let t10 ← mo (offsets + 9)
  let t11 ← mo (offsets + 10)
  let t12 ← mo (offsets + 11)
  let t13 ← mo (offsets + 12)
  let t14 ← mo (offsets + 13)
  let t15 ← mo (offsets + 14)
  let t16 ← mo (offsets + 15)
  some ([(ptr + t1.toInt, _mm_cvtsi128_si32 self.val0)] ++ [(ptr + t2.toInt, _mm_cvtsi128_si32 (_mm_shuffle_epi32 self.val0
      (_MM_SHUFFLE 0 3 2 1)))] ++ [(ptr + t3.toInt, _mm_cvtsi128_si32 (_mm_shuffle_epi32 self.val0 (_MM_SHUFFLE 1 0 3 2)))] ++
      [(ptr + t4.toInt, _mm_cvtsi128_si32 (_mm_shuffle_epi32 self.val0 (_MM_SHUFFLE 2 1 0 3)))] ++ [(ptr + t5.toInt,
      _mm_cvtsi128_si32 self.val1)] ++ [(ptr + t6.toInt, _mm_cvtsi128_si32 (_mm_shuffle_epi32 self.val1 (_MM_SHUFFLE 0 3 2
      1)))] ++ [(ptr + t7.toInt, _mm_cvtsi128_si32 (_mm_shuffle_epi32 self.val1 (_MM_SHUFFLE 1 0 3 2)))] ++ [(ptr + t8.toInt,
      _mm_cvtsi128_si32 (_mm_shuffle_epi32 self.val1 (_MM_SHUFFLE 2 1 0 3)))] ++ [(ptr + t9.toInt, _mm_cvtsi128_si32
      self.val2)] ++ [(ptr + t10.toInt, _mm_cvtsi128_si32 (_mm_shuffle_epi32 self.val2 (_MM_SHUFFLE 0 3 2 1)))] ++ [(ptr +
      t11.toInt, _mm_cvtsi128_si32 (_mm_shuffle_epi32 self.val2 (_MM_SHUFFLE 1 0 3 2)))] ++ [(ptr + t12.toInt,
      _mm_cvtsi128_si32 (_mm_shuffle_epi32 self.val2 (_MM_SHUFFLE 2 1 0 3)))] ++ [(ptr + t13.toInt, _mm_cvtsi128_si32
      self.val3)] ++ [(ptr + t14.toInt, _mm_cvtsi128_si32 (_mm_shuffle_epi32 self.val3 (_MM_SHUFFLE 0 3 2 1)))] ++ [(ptr +
      t15.toInt, _mm_cvtsi128_si32 (_mm_shuffle_epi32 self.val3 (_MM_SHUFFLE 1 0 3 2)))] ++ [(ptr + t16.toInt,
      _mm_cvtsi128_si32 (_mm_shuffle_epi32 self.val3 (_MM_SHUFFLE 2 1 0 3)))])

/-- `operator<<`, free function (detail/short_vec_sse_int_16.hpp:450-454) -/
def opStore (E : FEnv) (data : Int) (vec : V) : Option (Writes 32) := do
  let w1 ← store E vec data
  some w1

/-- `operator/=` of `sqrt_reference` (detail/short_vec_sse_int_16.hpp:488-503) -/
def opDivAssignSqrt (E : FEnv) (self : V) (other : SqrtRef) : V :=
  let val0 : M128i := _mm_cvtps_epi32 E (_mm_mul_ps E (_mm_cvtepi32_ps E self.val0) (_mm_rsqrt_ps E (_mm_cvtepi32_ps E
      other.vec.val0)))
  let val1 : M128i := _mm_cvtps_epi32 E (_mm_mul_ps E (_mm_cvtepi32_ps E self.val1) (_mm_rsqrt_ps E (_mm_cvtepi32_ps E
      other.vec.val1)))
  let val2 : M128i := _mm_cvtps_epi32 E (_mm_mul_ps E (_mm_cvtepi32_ps E self.val2) (_mm_rsqrt_ps E (_mm_cvtepi32_ps E
      other.vec.val2)))
  let val3 : M128i := _mm_cvtps_epi32 E (_mm_mul_ps E (_mm_cvtepi32_ps E self.val3) (_mm_rsqrt_ps E (_mm_cvtepi32_ps E
      other.vec.val3)))
  ⟨val0, val1, val2, val3⟩

/-- `operator/` of `sqrt_reference` (detail/short_vec_sse_int_16.hpp:505-521) -/
def opDivSqrt (E : FEnv) (self : V) (other : SqrtRef) : V :=
  ofRegs E (_mm_cvtps_epi32 E (_mm_mul_ps E (_mm_cvtepi32_ps E self.val0) (_mm_rsqrt_ps E (_mm_cvtepi32_ps E other.vec.val0))))
      (_mm_cvtps_epi32 E (_mm_mul_ps E (_mm_cvtepi32_ps E self.val1) (_mm_rsqrt_ps E (_mm_cvtepi32_ps E other.vec.val1))))
      (_mm_cvtps_epi32 E (_mm_mul_ps E (_mm_cvtepi32_ps E self.val2) (_mm_rsqrt_ps E (_mm_cvtepi32_ps E other.vec.val2))))
      (_mm_cvtps_epi32 E (_mm_mul_ps E (_mm_cvtepi32_ps E self.val3) (_mm_rsqrt_ps E (_mm_cvtepi32_ps E other.vec.val3))))

/-- `sqrt`, free function (detail/short_vec_sse_int_16.hpp:523-527) -/
def sqrtFn (E : FEnv) (vec : V) : SqrtRef := SqrtRef.mk vec

/-- `operator<<`, free function (detail/short_vec_sse_int_16.hpp:529-545) -/
def print (E : FEnv) (vec : V) : List (Out 32) :=
  [.s "[", .v vec.val0.x0, .s ", ", .v vec.val0.x1, .s ", ", .v vec.val0.x2, .s ", ", .v vec.val0.x3, .s ", ", .v vec.val1.x0,
      .s ", ", .v vec.val1.x1, .s ", ", .v vec.val1.x2, .s ", ", .v vec.val1.x3, .s ", ", .v vec.val2.x0, .s ", ", .v
      vec.val2.x1, .s ", ", .v vec.val2.x2, .s ", ", .v vec.val2.x3, .s ", ", .v vec.val3.x0, .s ", ", .v vec.val3.x1, .s ", ",
      .v vec.val3.x2, .s ", ", .v vec.val3.x3, .s "]"]

end LFA.SV.SseInt16

namespace LFA.SV.SseInt32

/-- members of `short_vec<int, 32>` (detail/short_vec_sse_int_32.hpp:59) -/
structure V where
  val0 : M128i
  val1 : M128i
  val2 : M128i
  val3 : M128i
  val4 : M128i
  val5 : M128i
  val6 : M128i
  val7 : M128i

/-- lanes, from low to high -/
def V.lanes (v : V) : List (BitVec 32) := SV.lanes v.val0 ++ (SV.lanes v.val1 ++ (SV.lanes v.val2 ++ (SV.lanes v.val3 ++
    (SV.lanes v.val4 ++ (SV.lanes v.val5 ++ (SV.lanes v.val6 ++ (SV.lanes v.val7)))))))

/-- `sqrt_reference<int, 32>`: keeps the vector until the square root is needed -/
structure SqrtRef where
  vec : V

/-- constructor (detail/short_vec_sse_int_32.hpp:71-81) -/
def bcast (E : FEnv) (data : BitVec 32) : V :=
  ⟨_mm_set1_epi32 data, _mm_set1_epi32 data, _mm_set1_epi32 data, _mm_set1_epi32 data, _mm_set1_epi32 data, _mm_set1_epi32
      data, _mm_set1_epi32 data, _mm_set1_epi32 data⟩

/-- constructor (detail/short_vec_sse_int_32.hpp:89-107) -/
def ofRegs (E : FEnv) (val1 : M128i) (val2 : M128i) (val3 : M128i) (val4 : M128i) (val5 : M128i) (val6 : M128i) (val7 : M128i)
    (val8 : M128i) : V :=
  ⟨val1, val2, val3, val4, val5, val6, val7, val8⟩

/-- `load` (detail/short_vec_sse_int_32.hpp:415-426) -/
def load (E : FEnv) (m : Mem 32) (self : V) (data : Int) : Option V := do
  let t1 ← _mm_loadu_si128 m (data + 0)
  let val0 : M128i := t1
  let t2 ← _mm_loadu_si128 m (data + 4)
  let val1 : M128i := t2
  let t3 ← _mm_loadu_si128 m (data + 8)
  let val2 : M128i := t3
  let t4 ← _mm_loadu_si128 m (data + 12)
  let val3 : M128i := t4
  let t5 ← _mm_loadu_si128 m (data + 16)
  let val4 : M128i := t5
  let t6 ← _mm_loadu_si128 m (data + 20)
  let val5 : M128i := t6
  let t7 ← _mm_loadu_si128 m (data + 24)
  let val6 : M128i := t7
  let t8 ← _mm_loadu_si128 m (data + 28)
  let val7 : M128i := t8
  some ⟨val0, val1, val2, val3, val4, val5, val6, val7⟩

/-- `store` (detail/short_vec_sse_int_32.hpp:442-453) -/
def store (E : FEnv) (self : V) (data : Int) : Option (Writes 32) := do
  let w1 ← _mm_storeu_si128 (data + 0) self.val0
  let w2 ← _mm_storeu_si128 (data + 4) self.val1
  let w3 ← _mm_storeu_si128 (data + 8) self.val2
  let w4 ← _mm_storeu_si128 (data + 12) self.val3
  let w5 ← _mm_storeu_si128 (data + 16) self.val4
  let w6 ← _mm_storeu_si128 (data + 20) self.val5
  let w7 ← _mm_storeu_si128 (data + 24) self.val6
  let w8 ← _mm_storeu_si128 (data + 28) self.val7
  some (w1 ++ w2 ++ w3 ++ w4 ++ w5 ++ w6 ++ w7 ++ w8)

/-- `sqrt` (detail/short_vec_sse_int_32.hpp:393-413) -/
def sqrt (E : FEnv) (self : V) : V :=
  ofRegs E (_mm_cvtps_epi32 E (_mm_sqrt_ps E (_mm_cvtepi32_ps E self.val0))) (_mm_cvtps_epi32 E (_mm_sqrt_ps E (_mm_cvtepi32_ps
      E self.val1))) (_mm_cvtps_epi32 E (_mm_sqrt_ps E (_mm_cvtepi32_ps E self.val2))) (_mm_cvtps_epi32 E (_mm_sqrt_ps E
      (_mm_cvtepi32_ps E self.val3))) (_mm_cvtps_epi32 E (_mm_sqrt_ps E (_mm_cvtepi32_ps E self.val4))) (_mm_cvtps_epi32 E
      (_mm_sqrt_ps E (_mm_cvtepi32_ps E self.val5))) (_mm_cvtps_epi32 E (_mm_sqrt_ps E (_mm_cvtepi32_ps E self.val6)))
      (_mm_cvtps_epi32 E (_mm_sqrt_ps E (_mm_cvtepi32_ps E self.val7)))

/-- constructor of `sqrt_reference` (detail/short_vec_sse_int_32.hpp:715-735) -/
def ofSqrt (E : FEnv) (other : SqrtRef) : V :=
  ⟨_mm_cvtps_epi32 E (_mm_sqrt_ps E (_mm_cvtepi32_ps E other.vec.val0)), _mm_cvtps_epi32 E (_mm_sqrt_ps E (_mm_cvtepi32_ps E
      other.vec.val1)), _mm_cvtps_epi32 E (_mm_sqrt_ps E (_mm_cvtepi32_ps E other.vec.val2)), _mm_cvtps_epi32 E (_mm_sqrt_ps E
      (_mm_cvtepi32_ps E other.vec.val3)), _mm_cvtps_epi32 E (_mm_sqrt_ps E (_mm_cvtepi32_ps E other.vec.val4)),
      _mm_cvtps_epi32 E (_mm_sqrt_ps E (_mm_cvtepi32_ps E other.vec.val5)), _mm_cvtps_epi32 E (_mm_sqrt_ps E (_mm_cvtepi32_ps E
      other.vec.val6)), _mm_cvtps_epi32 E (_mm_sqrt_ps E (_mm_cvtepi32_ps E other.vec.val7))⟩

/-- constructor (detail/short_vec_sse_int_32.hpp:83-87) -/
def ofPtr (E : FEnv) (m : Mem 32) (data : Int) : Option V := do
  let v1 ← load E m ⟨(uninit : M128i), (uninit : M128i), (uninit : M128i), (uninit : M128i), (uninit : M128i), (uninit :
      M128i), (uninit : M128i), (uninit : M128i)⟩ data
  some ⟨v1.val0, v1.val1, v1.val2, v1.val3, v1.val4, v1.val5, v1.val6, v1.val7⟩

/-- constructor (detail/short_vec_sse_int_32.hpp:110-115) -/
def ofList (E : FEnv) (m : Mem 32) (il : Int) : Option V := do
  let v1 ← load E m ⟨(uninit : M128i), (uninit : M128i), (uninit : M128i), (uninit : M128i), (uninit : M128i), (uninit :
      M128i), (uninit : M128i), (uninit : M128i)⟩ il
  some ⟨v1.val0, v1.val1, v1.val2, v1.val3, v1.val4, v1.val5, v1.val6, v1.val7⟩

/-- `operator-=` (detail/short_vec_sse_int_32.hpp:121-132) -/
def opSubAssign (E : FEnv) (self : V) (other : V) : V :=
  let val0 : M128i := _mm_sub_epi32 self.val0 other.val0
  let val1 : M128i := _mm_sub_epi32 self.val1 other.val1
  let val2 : M128i := _mm_sub_epi32 self.val2 other.val2
  let val3 : M128i := _mm_sub_epi32 self.val3 other.val3
  let val4 : M128i := _mm_sub_epi32 self.val4 other.val4
  let val5 : M128i := _mm_sub_epi32 self.val5 other.val5
  let val6 : M128i := _mm_sub_epi32 self.val6 other.val6
  let val7 : M128i := _mm_sub_epi32 self.val7 other.val7
  ⟨val0, val1, val2, val3, val4, val5, val6, val7⟩

/-- `operator-` (detail/short_vec_sse_int_32.hpp:134-146) -/
def opSub (E : FEnv) (self : V) (other : V) : V :=
  ofRegs E (_mm_sub_epi32 self.val0 other.val0) (_mm_sub_epi32 self.val1 other.val1) (_mm_sub_epi32 self.val2 other.val2)
      (_mm_sub_epi32 self.val3 other.val3) (_mm_sub_epi32 self.val4 other.val4) (_mm_sub_epi32 self.val5 other.val5)
      (_mm_sub_epi32 self.val6 other.val6) (_mm_sub_epi32 self.val7 other.val7)

/-- `operator+=` (detail/short_vec_sse_int_32.hpp:148-159) -/
def opAddAssign (E : FEnv) (self : V) (other : V) : V :=
  let val0 : M128i := _mm_add_epi32 self.val0 other.val0
  let val1 : M128i := _mm_add_epi32 self.val1 other.val1
  let val2 : M128i := _mm_add_epi32 self.val2 other.val2
  let val3 : M128i := _mm_add_epi32 self.val3 other.val3
  let val4 : M128i := _mm_add_epi32 self.val4 other.val4
  let val5 : M128i := _mm_add_epi32 self.val5 other.val5
  let val6 : M128i := _mm_add_epi32 self.val6 other.val6
  let val7 : M128i := _mm_add_epi32 self.val7 other.val7
  ⟨val0, val1, val2, val3, val4, val5, val6, val7⟩

/-- `operator+` (detail/short_vec_sse_int_32.hpp:161-173) -/
def opAdd (E : FEnv) (self : V) (other : V) : V :=
  ofRegs E (_mm_add_epi32 self.val0 other.val0) (_mm_add_epi32 self.val1 other.val1) (_mm_add_epi32 self.val2 other.val2)
      (_mm_add_epi32 self.val3 other.val3) (_mm_add_epi32 self.val4 other.val4) (_mm_add_epi32 self.val5 other.val5)
      (_mm_add_epi32 self.val6 other.val6) (_mm_add_epi32 self.val7 other.val7)

/-- `operator*=` (detail/short_vec_sse_int_32.hpp:176-187; avx, sse41) -/
def opMulAssign_avx (E : FEnv) (self : V) (other : V) : V :=
  let val0 : M128i := _mm_mullo_epi32 self.val0 other.val0
  let val1 : M128i := _mm_mullo_epi32 self.val1 other.val1
  let val2 : M128i := _mm_mullo_epi32 self.val2 other.val2
  let val3 : M128i := _mm_mullo_epi32 self.val3 other.val3
  let val4 : M128i := _mm_mullo_epi32 self.val4 other.val4
  let val5 : M128i := _mm_mullo_epi32 self.val5 other.val5
  let val6 : M128i := _mm_mullo_epi32 self.val6 other.val6
  let val7 : M128i := _mm_mullo_epi32 self.val7 other.val7
  ⟨val0, val1, val2, val3, val4, val5, val6, val7⟩

/-- `operator*=` (detail/short_vec_sse_int_32.hpp:203-262; sse, sse2) -/
def opMulAssign_sse (E : FEnv) (self : V) (other : V) : V :=
  let tmp1 : M128i := _mm_mul_epu32 self.val0 other.val0
  let tmp2 : M128i := _mm_mul_epu32 (_mm_srli_si128 self.val0 4) (_mm_srli_si128 other.val0 4)
  let val0 : M128i := _mm_unpacklo_epi32 (_mm_shuffle_epi32 tmp1 (_MM_SHUFFLE 0 0 2 0)) (_mm_shuffle_epi32 tmp2 (_MM_SHUFFLE 0
      0 2 0))
  let tmp1 : M128i := _mm_mul_epu32 self.val1 other.val1
  let tmp2 : M128i := _mm_mul_epu32 (_mm_srli_si128 self.val1 4) (_mm_srli_si128 other.val1 4)
  let val1 : M128i := _mm_unpacklo_epi32 (_mm_shuffle_epi32 tmp1 (_MM_SHUFFLE 0 0 2 0)) (_mm_shuffle_epi32 tmp2 (_MM_SHUFFLE 0
      0 2 0))
  let tmp1 : M128i := _mm_mul_epu32 self.val2 other.val2
  let tmp2 : M128i := _mm_mul_epu32 (_mm_srli_si128 self.val2 4) (_mm_srli_si128 other.val2 4)
  let val2 : M128i := _mm_unpacklo_epi32 (_mm_shuffle_epi32 tmp1 (_MM_SHUFFLE 0 0 2 0)) (_mm_shuffle_epi32 tmp2 (_MM_SHUFFLE 0
      0 2 0))
  let tmp1 : M128i := _mm_mul_epu32 self.val3 other.val3
  let tmp2 : M128i := _mm_mul_epu32 (_mm_srli_si128 self.val3 4) (_mm_srli_si128 other.val3 4)
  let val3 : M128i := _mm_unpacklo_epi32 (_mm_shuffle_epi32 tmp1 (_MM_SHUFFLE 0 0 2 0)) (_mm_shuffle_epi32 tmp2 (_MM_SHUFFLE 0
      0 2 0))
  let tmp1 : M128i := _mm_mul_epu32 self.val4 other.val4
  let tmp2 : M128i := _mm_mul_epu32 (_mm_srli_si128 self.val4 4) (_mm_srli_si128 other.val4 4)
  let val4 : M128i := _mm_unpacklo_epi32 (_mm_shuffle_epi32 tmp1 (_MM_SHUFFLE 0 0 2 0)) (_mm_shuffle_epi32 tmp2 (_MM_SHUFFLE 0
      0 2 0))
  let tmp1 : M128i := _mm_mul_epu32 self.val5 other.val5
  let tmp2 : M128i := _mm_mul_epu32 (_mm_srli_si128 self.val5 4) (_mm_srli_si128 other.val5 4)
  let val5 : M128i := _mm_unpacklo_epi32 (_mm_shuffle_epi32 tmp1 (_MM_SHUFFLE 0 0 2 0)) (_mm_shuffle_epi32 tmp2 (_MM_SHUFFLE 0
      0 2 0))
  let tmp1 : M128i := _mm_mul_epu32 self.val6 other.val6
  let tmp2 : M128i := _mm_mul_epu32 (_mm_srli_si128 self.val6 4) (_mm_srli_si128 other.val6 4)
  let val6 : M128i := _mm_unpacklo_epi32 (_mm_shuffle_epi32 tmp1 (_MM_SHUFFLE 0 0 2 0)) (_mm_shuffle_epi32 tmp2 (_MM_SHUFFLE 0
      0 2 0))
  let tmp1 : M128i := _mm_mul_epu32 self.val7 other.val7
  let tmp2 : M128i := _mm_mul_epu32 (_mm_srli_si128 self.val7 4) (_mm_srli_si128 other.val7 4)
  let val7 : M128i := _mm_unpacklo_epi32 (_mm_shuffle_epi32 tmp1 (_MM_SHUFFLE 0 0 2 0)) (_mm_shuffle_epi32 tmp2 (_MM_SHUFFLE 0
      0 2 0))
  ⟨val0, val1, val2, val3, val4, val5, val6, val7⟩

/-- `operator*` (detail/short_vec_sse_int_32.hpp:189-201; avx, sse41) -/
def opMul_avx (E : FEnv) (self : V) (other : V) : V :=
  ofRegs E (_mm_mullo_epi32 self.val0 other.val0) (_mm_mullo_epi32 self.val1 other.val1) (_mm_mullo_epi32 self.val2 other.val2)
      (_mm_mullo_epi32 self.val3 other.val3) (_mm_mullo_epi32 self.val4 other.val4) (_mm_mullo_epi32 self.val5 other.val5)
      (_mm_mullo_epi32 self.val6 other.val6) (_mm_mullo_epi32 self.val7 other.val7)

/-- `operator*` (detail/short_vec_sse_int_32.hpp:264-333; sse, sse2) -/
def opMul_sse (E : FEnv) (self : V) (other : V) : V :=
  let tmp1 : M128i := _mm_mul_epu32 self.val0 other.val0
  let tmp2 : M128i := _mm_mul_epu32 (_mm_srli_si128 self.val0 4) (_mm_srli_si128 other.val0 4)
  let result1 : M128i := _mm_unpacklo_epi32 (_mm_shuffle_epi32 tmp1 (_MM_SHUFFLE 0 0 2 0)) (_mm_shuffle_epi32 tmp2 (_MM_SHUFFLE
      0 0 2 0))
  let tmp1 : M128i := _mm_mul_epu32 self.val1 other.val1
  let tmp2 : M128i := _mm_mul_epu32 (_mm_srli_si128 self.val1 4) (_mm_srli_si128 other.val1 4)
  let result2 : M128i := _mm_unpacklo_epi32 (_mm_shuffle_epi32 tmp1 (_MM_SHUFFLE 0 0 2 0)) (_mm_shuffle_epi32 tmp2 (_MM_SHUFFLE
      0 0 2 0))
  let tmp1 : M128i := _mm_mul_epu32 self.val2 other.val2
  let tmp2 : M128i := _mm_mul_epu32 (_mm_srli_si128 self.val2 4) (_mm_srli_si128 other.val2 4)
  let result3 : M128i := _mm_unpacklo_epi32 (_mm_shuffle_epi32 tmp1 (_MM_SHUFFLE 0 0 2 0)) (_mm_shuffle_epi32 tmp2 (_MM_SHUFFLE
      0 0 2 0))
  let tmp1 : M128i := _mm_mul_epu32 self.val3 other.val3
  let tmp2 : M128i := _mm_mul_epu32 (_mm_srli_si128 self.val3 4) (_mm_srli_si128 other.val3 4)
  let result4 : M128i := _mm_unpacklo_epi32 (_mm_shuffle_epi32 tmp1 (_MM_SHUFFLE 0 0 2 0)) (_mm_shuffle_epi32 tmp2 (_MM_SHUFFLE
      0 0 2 0))
  let tmp1 : M128i := _mm_mul_epu32 self.val4 other.val4
  let tmp2 : M128i := _mm_mul_epu32 (_mm_srli_si128 self.val4 4) (_mm_srli_si128 other.val4 4)
  let result5 : M128i := _mm_unpacklo_epi32 (_mm_shuffle_epi32 tmp1 (_MM_SHUFFLE 0 0 2 0)) (_mm_shuffle_epi32 tmp2 (_MM_SHUFFLE
      0 0 2 0))
  let tmp1 : M128i := _mm_mul_epu32 self.val5 other.val5
  let tmp2 : M128i := _mm_mul_epu32 (_mm_srli_si128 self.val5 4) (_mm_srli_si128 other.val5 4)
  let result6 : M128i := _mm_unpacklo_epi32 (_mm_shuffle_epi32 tmp1 (_MM_SHUFFLE 0 0 2 0)) (_mm_shuffle_epi32 tmp2 (_MM_SHUFFLE
      0 0 2 0))
  let tmp1 : M128i := _mm_mul_epu32 self.val6 other.val6
  let tmp2 : M128i := _mm_mul_epu32 (_mm_srli_si128 self.val6 4) (_mm_srli_si128 other.val6 4)
  let result7 : M128i := _mm_unpacklo_epi32 (_mm_shuffle_epi32 tmp1 (_MM_SHUFFLE 0 0 2 0)) (_mm_shuffle_epi32 tmp2 (_MM_SHUFFLE
      0 0 2 0))
  let tmp1 : M128i := _mm_mul_epu32 self.val7 other.val7
  let tmp2 : M128i := _mm_mul_epu32 (_mm_srli_si128 self.val7 4) (_mm_srli_si128 other.val7 4)
  let result8 : M128i := _mm_unpacklo_epi32 (_mm_shuffle_epi32 tmp1 (_MM_SHUFFLE 0 0 2 0)) (_mm_shuffle_epi32 tmp2 (_MM_SHUFFLE
      0 0 2 0))
  ofRegs E result1 result2 result3 result4 result5 result6 result7 result8

/-- `operator/=` (detail/short_vec_sse_int_32.hpp:336-355) -/
def opDivAssign (E : FEnv) (self : V) (other : V) : V :=
  let val0 : M128i := _mm_cvtps_epi32 E (_mm_div_ps E (_mm_cvtepi32_ps E self.val0) (_mm_cvtepi32_ps E other.val0))
  let val1 : M128i := _mm_cvtps_epi32 E (_mm_div_ps E (_mm_cvtepi32_ps E self.val1) (_mm_cvtepi32_ps E other.val1))
  let val2 : M128i := _mm_cvtps_epi32 E (_mm_div_ps E (_mm_cvtepi32_ps E self.val2) (_mm_cvtepi32_ps E other.val2))
  let val3 : M128i := _mm_cvtps_epi32 E (_mm_div_ps E (_mm_cvtepi32_ps E self.val3) (_mm_cvtepi32_ps E other.val3))
  let val4 : M128i := _mm_cvtps_epi32 E (_mm_div_ps E (_mm_cvtepi32_ps E self.val4) (_mm_cvtepi32_ps E other.val4))
  let val5 : M128i := _mm_cvtps_epi32 E (_mm_div_ps E (_mm_cvtepi32_ps E self.val5) (_mm_cvtepi32_ps E other.val5))
  let val6 : M128i := _mm_cvtps_epi32 E (_mm_div_ps E (_mm_cvtepi32_ps E self.val6) (_mm_cvtepi32_ps E other.val6))
  let val7 : M128i := _mm_cvtps_epi32 E (_mm_div_ps E (_mm_cvtepi32_ps E self.val7) (_mm_cvtepi32_ps E other.val7))
  ⟨val0, val1, val2, val3, val4, val5, val6, val7⟩

/-- `operator/` (detail/short_vec_sse_int_32.hpp:360-388) -/
def opDiv (E : FEnv) (self : V) (other : V) : V :=
  ofRegs E (_mm_cvttps_epi32 E (_mm_div_ps E (_mm_cvtepi32_ps E self.val0) (_mm_cvtepi32_ps E other.val0))) (_mm_cvttps_epi32 E
      (_mm_div_ps E (_mm_cvtepi32_ps E self.val1) (_mm_cvtepi32_ps E other.val1))) (_mm_cvttps_epi32 E (_mm_div_ps E
      (_mm_cvtepi32_ps E self.val2) (_mm_cvtepi32_ps E other.val2))) (_mm_cvttps_epi32 E (_mm_div_ps E (_mm_cvtepi32_ps E
      self.val3) (_mm_cvtepi32_ps E other.val3))) (_mm_cvttps_epi32 E (_mm_div_ps E (_mm_cvtepi32_ps E self.val4)
      (_mm_cvtepi32_ps E other.val4))) (_mm_cvttps_epi32 E (_mm_div_ps E (_mm_cvtepi32_ps E self.val5) (_mm_cvtepi32_ps E
      other.val5))) (_mm_cvttps_epi32 E (_mm_div_ps E (_mm_cvtepi32_ps E self.val6) (_mm_cvtepi32_ps E other.val6)))
      (_mm_cvttps_epi32 E (_mm_div_ps E (_mm_cvtepi32_ps E self.val7) (_mm_cvtepi32_ps E other.val7)))

/-- `load_aligned` (detail/short_vec_sse_int_32.hpp:428-440) -/
def load_aligned (E : FEnv) (m : Mem 32) (self : V) (data : Int) : Option V := do
  assertAligned 4 data 16
  let t1 ← _mm_load_si128 m (data + 0)
  let val0 : M128i := t1
  let t2 ← _mm_load_si128 m (data + 4)
  let val1 : M128i := t2
  let t3 ← _mm_load_si128 m (data + 8)
  let val2 : M128i := t3
  let t4 ← _mm_load_si128 m (data + 12)
  let val3 : M128i := t4
  let t5 ← _mm_load_si128 m (data + 16)
  let val4 : M128i := t5
  let t6 ← _mm_load_si128 m (data + 20)
  let val5 : M128i := t6
  let t7 ← _mm_load_si128 m (data + 24)
  let val6 : M128i := t7
  let t8 ← _mm_load_si128 m (data + 28)
  let val7 : M128i := t8
  some ⟨val0, val1, val2, val3, val4, val5, val6, val7⟩

/-- `store_aligned` (detail/short_vec_sse_int_32.hpp:455-467) -/
def store_aligned (E : FEnv) (self : V) (data : Int) : Option (Writes 32) := do
  assertAligned 4 data 16
  let w1 ← _mm_store_si128 (data + 0) self.val0
  let w2 ← _mm_store_si128 (data + 4) self.val1
  let w3 ← _mm_store_si128 (data + 8) self.val2
  let w4 ← _mm_store_si128 (data + 12) self.val3
  let w5 ← _mm_store_si128 (data + 16) self.val4
  let w6 ← _mm_store_si128 (data + 20) self.val5
  let w7 ← _mm_store_si128 (data + 24) self.val6
  let w8 ← _mm_store_si128 (data + 28) self.val7
  some (w1 ++ w2 ++ w3 ++ w4 ++ w5 ++ w6 ++ w7 ++ w8)

/-- `store_nt` (detail/short_vec_sse_int_32.hpp:469-481) -/
def store_nt (E : FEnv) (self : V) (data : Int) : Option (Writes 32) := do
  assertAligned 4 data 16
  let w1 ← _mm_stream_si128 (data + 0) self.val0
  let w2 ← _mm_stream_si128 (data + 4) self.val1
  let w3 ← _mm_stream_si128 (data + 8) self.val2
  let w4 ← _mm_stream_si128 (data + 12) self.val3
  let w5 ← _mm_stream_si128 (data + 16) self.val4
  let w6 ← _mm_stream_si128 (data + 20) self.val5
  let w7 ← _mm_stream_si128 (data + 24) self.val6
  let w8 ← _mm_stream_si128 (data + 28) self.val7
  some (w1 ++ w2 ++ w3 ++ w4 ++ w5 ++ w6 ++ w7 ++ w8)

/-- `gather` (detail/short_vec_sse_int_32.hpp:484-526; avx, sse41) -/
def gather_avx (E : FEnv) (m : Mem 32) (mo : Mem 32) (self : V) (ptr : Int) (offsets : Int) : Option V := do
  let t1 ← mo (offsets + 0)
  let t2 ← m (ptr + t1.toInt)
  let val0 : M128i := _mm_insert_epi32 self.val0 t2 0
  let t3 ← mo (offsets + 1)
  let t4 ← m (ptr + t3.toInt)
  let val0 : M128i := _mm_insert_epi32 val0 t4 1
  let t5 ← mo (offsets + 2)
  let t6 ← m (ptr + t5.toInt)
  let val0 : M128i := _mm_insert_epi32 val0 t6 2
  let t7 ← mo (offsets + 3)
  let t8 ← m (ptr + t7.toInt)
  let val0 : M128i := _mm_insert_epi32 val0 t8 3
  let t9 ← mo (offsets + 4)
  let t10 ← m (ptr + t9.toInt)
  let val1 : M128i := _mm_insert_epi32 self.val1 t10 0
  let t11 ← mo (offsets + 5)
  let t12 ← m (ptr + t11.toInt)
  let val1 : M128i := _mm_insert_epi32 val1 t12 1
  let t13 ← mo (offsets + 6)
  let t14 ← m (ptr + t13.toInt)
  let val1 : M128i := _mm_insert_epi32 val1 t14 2
  let t15 ← mo (offsets + 7)
  let t16 ← m (ptr + t15.toInt)
  let val1 : M128i := _mm_insert_epi32 val1 t16 3
  let t17 ← mo (offsets + 8)
  let t18 ← m (ptr + t17.toInt)
  let val2 : M128i := _mm_insert_epi32 self.val2 t18 0
  let t19 ← mo (offsets + 9)
  let t20 ← m (ptr + t19.toInt)
  let val2 : M128i := _mm_insert_epi32 val2 t20 1
  let t21 ← mo (offsets + 10)
  let t22 ← m (ptr + t21.toInt)
  let val2 : M128i := _mm_insert_epi32 val2 t22 2
  let t23 ← mo (offsets + 11)
  let t24 ← m (ptr + t23.toInt)
  let val2 : M128i := _mm_insert_epi32 val2 t24 3
  let t25 ← mo (offsets + 12)
  let t26 ← m (ptr + t25.toInt)
  let val3 : M128i := _mm_insert_epi32 self.val3 t26 0
  let t27 ← mo (offsets + 13)
  let t28 ← m (ptr + t27.toInt)
  let val3 : M128i := _mm_insert_epi32 val3 t28 1
  let t29 ← mo (offsets + 14)
  let t30 ← m (ptr + t29.toInt)
  let val3 : M128i := _mm_insert_epi32 val3 t30 2
  let t31 ← mo (offsets + 15)
  let t32 ← m (ptr + t31.toInt)
  let val3 : M128i := _mm_insert_epi32 val3 t32 3
  let t33 ← mo (offsets + 16)
  let t34 ← m (ptr + t33.toInt)
  let val4 : M128i := _mm_insert_epi32 self.val4 t34 0
  let t35 ← mo (offsets + 17)
  let t36 ← m (ptr + t35.toInt)
  let val4 : M128i := _mm_insert_epi32 val4 t36 1
  let t37 ← mo (offsets + 18)
  let t38 ← m (ptr + t37.toInt)
  let val4 : M128i := _mm_insert_epi32 val4 t38 2
  let t39 ← mo (offsets + 19)
  let t40 ← m (ptr + t39.toInt)
  let val4 : M128i := _mm_insert_epi32 val4 t40 3
  let t41 ← mo (offsets + 20)
  let t42 ← m (ptr + t41.toInt)
  let val5 : M128i := _mm_insert_epi32 self.val5 t42 0
  let t43 ← mo (offsets + 21)
  let t44 ← m (ptr + t43.toInt)
  let val5 : M128i := _mm_insert_epi32 val5 t44 1
  let t45 ← mo (offsets + 22)
  let t46 ← m (ptr + t45.toInt)
  let val5 : M128i := _mm_insert_epi32 val5 t46 2
  let t47 ← mo (offsets + 23)
  let t48 ← m (ptr + t47.toInt)
  let val5 : M128i := _mm_insert_epi32 val5 t48 3
  let t49 ← mo (offsets + 24)
  let t50 ← m (ptr + t49.toInt)
  let val6 : M128i := _mm_insert_epi32 self.val6 t50 0
  let t51 ← mo (offsets + 25)
  let t52 ← m (ptr + t51.toInt)
  let val6 : M128i := _mm_insert_epi32 val6 t52 1
  let t53 ← mo (offsets + 26)
  let t54 ← m (ptr + t53.toInt)
  let val6 : M128i := _mm_insert_epi32 val6 t54 2
  let t55 ← mo (offsets + 27)
  let t56 ← m (ptr + t55.toInt)
  let val6 : M128i := _mm_insert_epi32 val6 t56 3
  let t57 ← mo (offsets + 28)
  let t58 ← m (ptr + t57.toInt)
  let val7 : M128i := _mm_insert_epi32 self.val7 t58 0
  let t59 ← mo (offsets + 29)
  let t60 ← m (ptr + t59.toInt)
  let val7 : M128i := _mm_insert_epi32 val7 t60 1
  let t61 ← mo (offsets + 30)
  let t62 ← m (ptr + t61.toInt)
  let val7 : M128i := _mm_insert_epi32 val7 t62 2
  let t63 ← mo (offsets + 31)
  let t64 ← m (ptr + t63.toInt)
  let val7 : M128i := _mm_insert_epi32 val7 t64 3
  some ⟨val0, val1, val2, val3, val4, val5, val6, val7⟩

/-- `gather` (detail/short_vec_sse_int_32.hpp:572-639; sse, sse2) -/
def gather_sse (E : FEnv) (m : Mem 32) (mo : Mem 32) (self : V) (ptr : Int) (offsets : Int) : Option V := do
  let i2 : M128i := (uninit : M128i)
  let i3 : M128i := (uninit : M128i)
  let i4 : M128i := (uninit : M128i)
  let t1 ← mo (offsets + 0)
  let t2 ← m (ptr + t1.toInt)
  let val0 : M128i := _mm_cvtsi32_si128 t2
  let t3 ← mo (offsets + 1)
  let t4 ← m (ptr + t3.toInt)
  let i2 : M128i := _mm_cvtsi32_si128 t4
  let t5 ← mo (offsets + 2)
  let t6 ← m (ptr + t5.toInt)
  let i3 : M128i := _mm_cvtsi32_si128 t6
  let t7 ← mo (offsets + 3)
  let t8 ← m (ptr + t7.toInt)
  let i4 : M128i := _mm_cvtsi32_si128 t8
  let val0 : M128i := _mm_unpacklo_epi32 val0 i3
  let i3 : M128i := _mm_unpacklo_epi32 i2 i4
  let val0 : M128i := _mm_unpacklo_epi32 val0 i3
  let t9 ← mo (offsets + 4)
  let t10 ← m (ptr + t9.toInt)
  let val1 : M128i := _mm_cvtsi32_si128 t10
  let t11 ← mo (offsets + 5)
  let t12 ← m (ptr + t11.toInt)
  let i2 : M128i := _mm_cvtsi32_si128 t12
  let t13 ← mo (offsets + 6)
  let t14 ← m (ptr + t13.toInt)
  let i3 : M128i := _mm_cvtsi32_si128 t14
  let t15 ← mo (offsets + 7)
  let t16 ← m (ptr + t15.toInt)
  let i4 : M128i := _mm_cvtsi32_si128 t16
  let val1 : M128i := _mm_unpacklo_epi32 val1 i3
  let i3 : M128i := _mm_unpacklo_epi32 i2 i4
  let val1 : M128i := _mm_unpacklo_epi32 val1 i3
  let t17 ← mo (offsets + 8)
  let t18 ← m (ptr + t17.toInt)
  let val2 : M128i := _mm_cvtsi32_si128 t18
  let t19 ← mo (offsets + 9)
  let t20 ← m (ptr + t19.toInt)
  let i2 : M128i := _mm_cvtsi32_si128 t20
  let t21 ← mo (offsets + 10)
  let t22 ← m (ptr + t21.toInt)
  let i3 : M128i := _mm_cvtsi32_si128 t22
  let t23 ← mo (offsets + 11)
  let t24 ← m (ptr + t23.toInt)
  let i4 : M128i := _mm_cvtsi32_si128 t24
  let val2 : M128i := _mm_unpacklo_epi32 val2 i3
  let i3 : M128i := _mm_unpacklo_epi32 i2 i4
  let val2 : M128i := _mm_unpacklo_epi32 val2 i3
  let t25 ← mo (offsets + 12)
  let t26 ← m (ptr + t25.toInt)
  let val3 : M128i := _mm_cvtsi32_si128 t26
  let t27 ← mo (offsets + 13)
  let t28 ← m (ptr + t27.toInt)
  let i2 : M128i := _mm_cvtsi32_si128 t28
  let t29 ← mo (offsets + 14)
  let t30 ← m (ptr + t29.toInt)
  let i3 : M128i := _mm_cvtsi32_si128 t30
  let t31 ← mo (offsets + 15)
  let t32 ← m (ptr + t31.toInt)
  let i4 : M128i := _mm_cvtsi32_si128 t32
  let val3 : M128i := _mm_unpacklo_epi32 val3 i3
  let i3 : M128i := _mm_unpacklo_epi32 i2 i4
  let val3 : M128i := _mm_unpacklo_epi32 val3 i3
  let t33 ← mo (offsets + 16)
  let t34 ← m (ptr + t33.toInt)
  let val4 : M128i := _mm_cvtsi32_si128 t34
  let t35 ← mo (offsets + 17)
  let t36 ← m (ptr + t35.toInt)
  let i2 : M128i := _mm_cvtsi32_si128 t36
  let t37 ← mo (offsets + 18)
  let t38 ← m (ptr + t37.toInt)
  let i3 : M128i := _mm_cvtsi32_si128 t38
  let t39 ← mo (offsets + 19)
  let t40 ← m (ptr + t39.toInt)
  let i4 : M128i := _mm_cvtsi32_si128 t40
  let val4 : M128i := _mm_unpacklo_epi32 val4 i3
  let i3 : M128i := _mm_unpacklo_epi32 i2 i4
  let val4 : M128i := _mm_unpacklo_epi32 val4 i3
  let t41 ← mo (offsets + 20)
  let t42 ← m (ptr + t41.toInt)
  let val5 : M128i := _mm_cvtsi32_si128 t42
  let t43 ← mo (offsets + 21)
  let t44 ← m (ptr + t43.toInt)
  let i2 : M128i := _mm_cvtsi32_si128 t44
  let t45 ← mo (offsets + 22)
  let t46 ← m (ptr + t45.toInt)
  let i3 : M128i := _mm_cvtsi32_si128 t46
  let t47 ← mo (offsets + 23)
  let t48 ← m (ptr + t47.toInt)
  let i4 : M128i := _mm_cvtsi32_si128 t48
  let val5 : M128i := _mm_unpacklo_epi32 val5 i3
  let i3 : M128i := _mm_unpacklo_epi32 i2 i4
  let val5 : M128i := _mm_unpacklo_epi32 val5 i3
  let t49 ← mo (offsets + 24)
  let t50 ← m (ptr + t49.toInt)
  let val6 : M128i := _mm_cvtsi32_si128 t50
  let t51 ← mo (offsets + 25)
  let t52 ← m (ptr + t51.toInt)
  let i2 : M128i := _mm_cvtsi32_si128 t52
  let t53 ← mo (offsets + 26)
  let t54 ← m (ptr + t53.toInt)
  let i3 : M128i := _mm_cvtsi32_si128 t54
  let t55 ← mo (offsets + 27)
  let t56 ← m (ptr + t55.toInt)
  let i4 : M128i := _mm_cvtsi32_si128 t56
  let val6 : M128i := _mm_unpacklo_epi32 val6 i3
  let i3 : M128i := _mm_unpacklo_epi32 i2 i4
  let val6 : M128i := _mm_unpacklo_epi32 val6 i3
  let t57 ← mo (offsets + 28)
  let t58 ← m (ptr + t57.toInt)
  let val7 : M128i := _mm_cvtsi32_si128 t58
  let t59 ← mo (offsets + 29)
  let t60 ← m (ptr + t59.toInt)
  let i2 : M128i := _mm_cvtsi32_si128 t60
  let t61 ← mo (offsets + 30)
  let t62 ← m (ptr + t61.toInt)
  let i3 : M128i := _mm_cvtsi32_si128 t62
  let t63 ← mo (offsets + 31)
  let t64 ← m (ptr + t63.toInt)
  let i4 : M128i := _mm_cvtsi32_si128 t64
  let val7 : M128i := _mm_unpacklo_epi32 val7 i3
  let i3 : M128i := _mm_unpacklo_epi32 i2 i4
  let val7 : M128i := _mm_unpacklo_epi32 val7 i3
  some ⟨val0, val1, val2, val3, val4, val5, val6, val7⟩

/-- `scatter` (detail/short_vec_sse_int_32.hpp:528-570; avx, sse41) -/
def scatter_avx (E : FEnv) (mo : Mem 32) (self : V) (ptr : Int) (offsets : Int) : Option (Writes 32) := do
  let t1 ← mo (offsets + 0)
  let t2 ← mo (offsets + 1)
  let t3 ← mo (offsets + 2)
  let t4 ← mo (offsets + 3)
  let t5 ← mo (offsets + 4)
  let t6 ← mo (offsets + 5)
  let t7 ← mo (offsets + 6)
  let t8 ← mo (offsets + 7)
  let t9 ← mo (offsets + 8)
  let t10 ← mo (offsets + 9)
  let t11 ← mo (offsets + 10)
  let t12 ← mo (offsets + 11)
  let t13 ← mo (offsets + 12)
  let t14 ← mo (offsets + 13)
  let t15 ← mo (offsets + 14)
  let t16 ← mo (offsets + 15)
  let t17 ← mo (offsets + 16)
  let t18 ← mo (offsets + 17)
  let t19 ← mo (offsets + 18)
  let t20 ← mo (offsets + 19)
  let t21 ← mo (offsets + 20)
  let t22 ← mo (offsets + 21)
  let t23 ← mo (offsets + 22)
  let t24 ← mo (offsets + 23)
  let t25 ← mo (offsets + 24)
  let t26 ← mo (offsets + 25)
  let t27 ← mo (offsets + 26)
  let t28 ← mo (offsets + 27)
  let t29 ← mo (offsets + 28)
  let t30 ← mo (offsets + 29)
  let t31 ← mo (offsets + 30)
  let t32 ← mo (offsets + 31)
  some ([(ptr + t1.toInt, _mm_extract_epi32 self.val0 0)] ++ [(ptr + t2.toInt, _mm_extract_epi32 self.val0 1)] ++ [(ptr +
      t3.toInt, _mm_extract_epi32 self.val0 2)] ++ [(ptr + t4.toInt, _mm_extract_epi32 self.val0 3)] ++ [(ptr + t5.toInt,
      _mm_extract_epi32 self.val1 0)] ++ [(ptr + t6.toInt, _mm_extract_epi32 self.val1 1)] ++ [(ptr + t7.toInt,
      _mm_extract_epi32 self.val1 2)] ++ [(ptr + t8.toInt, _mm_extract_epi32 self.val1 3)] ++ [(ptr + t9.toInt,
      _mm_extract_epi32 self.val2 0)] ++ [(ptr + t10.toInt, _mm_extract_epi32 self.val2 1)] ++ [(ptr + t11.toInt,
      _mm_extract_epi32 self.val2 2)] ++ [(ptr + t12.toInt, _mm_extract_epi32 self.val2 3)] ++ [(ptr + t13.toInt,
      _mm_extract_epi32 self.val3 0)] ++ [(ptr + t14.toInt, _mm_extract_epi32 self.val3 1)] ++ [(ptr + t15.toInt,
      _mm_extract_epi32 self.val3 2)] ++ [(ptr + t16.toInt, _mm_extract_epi32 self.val3 3)] ++ [(ptr + t17.toInt,
      _mm_extract_epi32 self.val4 0)] ++ [(ptr + t18.toInt, _mm_extract_epi32 self.val4 1)] ++ [(ptr + t19.toInt,
      _mm_extract_epi32 self.val4 2)] ++ [(ptr + t20.toInt, _mm_extract_epi32 self.val4 3)] ++ [(ptr + t21.toInt,
      _mm_extract_epi32 self.val5 0)] ++ [(ptr + t22.toInt, _mm_extract_epi32 self.val5 1)] ++ [(ptr + t23.toInt,
      _mm_extract_epi32 self.val5 2)] ++ [(ptr + t24.toInt, _mm_extract_epi32 self.val5 3)] ++ [(ptr + t25.toInt,
      _mm_extract_epi32 self.val6 0)] ++ [(ptr + t26.toInt, _mm_extract_epi32 self.val6 1)] ++ [(ptr + t27.toInt,
      _mm_extract_epi32 self.val6 2)] ++ [(ptr + t28.toInt, _mm_extract_epi32 self.val6 3)] ++ [(ptr + t29.toInt,
      _mm_extract_epi32 self.val7 0)] ++ [(ptr + t30.toInt, _mm_extract_epi32 self.val7 1)] ++ [(ptr + t31.toInt,
      _mm_extract_epi32 self.val7 2)] ++ [(ptr + t32.toInt, _mm_extract_epi32 self.val7 3)])

/-- `scatter` (detail/short_vec_sse_int_32.hpp:641-683; sse, sse2) -/
def scatter_sse (E : FEnv) (mo : Mem 32) (self : V) (ptr : Int) (offsets : Int) : Option (Writes 32) := do
  let t1 ← mo (offsets + 0)
  let t2 ← mo (offsets + 1)
  let t3 ← mo (offsets + 2)
  let t4 ← mo (offsets + 3)
  let t5 ← mo (offsets + 4)
  let t6 ← mo (offsets + 5)
  let t7 ← mo (offsets + 6)
  let t8 ← mo (offsets + 7)
  let t9 ← mo (offsets + 8)
  let t10 ← mo (offsets + 9)
  let t11 ← mo (offsets + 10)
  let t12 ← mo (offsets + 11)
  let t13 ← mo (offsets + 12)
  let t14 ← mo (offsets + 13)
  let t15 ← mo (offsets + 14)
  let t16 ← mo (offsets + 15)
  let t17 ← mo (offsets + 16)
  let t18 ← mo (offsets + 17)
  let t19 ← mo (offsets + 18)
  let t20 ← mo (offsets + 19)
  let t21 ← mo (offsets + 20)
  let t22 ← mo (offsets + 21)
  let t23 ← mo (offsets + 22)
  let t24 ← mo (offsets + 23)
  let t25 ← mo (offsets + 24)
  let t26 ← mo (offsets + 25)
  let t27 ← mo (offsets + 26)
  let t28 ← mo (offsets + 27)
  let t29 ← mo (offsets + 28)
  let t30 ← mo (offsets + 29)
  let t31 ← mo (offsets + 30)
  let t32 ← mo (offsets + 31)
  some ([(ptr + t1.toInt, _mm_cvtsi128_si32 self.val0)] ++ [(ptr + t2.toInt, _mm_cvtsi128_si32 (_mm_shuffle_epi32 self.val0
      (_MM_SHUFFLE 0 3 2 1)))] ++ [(ptr + t3.toInt, _mm_cvtsi128_si32 (_mm_shuffle_epi32 self.val0 (_MM_SHUFFLE 1 0 3 2)))] ++
      [(ptr + t4.toInt, _mm_cvtsi128_si32 (_mm_shuffle_epi32 self.val0 (_MM_SHUFFLE 2 1 0 3)))] ++ [(ptr + t5.toInt,
      _mm_cvtsi128_si32 self.val1)] ++ [(ptr + t6.toInt, _mm_cvtsi128_si32 (_mm_shuffle_epi32 self.val1 (_MM_SHUFFLE 0 3 2
      1)))] ++ [(ptr + t7.toInt, _mm_cvtsi128_si32 (_mm_shuffle_epi32 self.val1 (_MM_SHUFFLE 1 0 3 2)))] ++ [(ptr + t8.toInt,
      _mm_cvtsi128_si32 (_mm_shuffle_epi32 self.val1 (_MM_SHUFFLE 2 1 0 3)))] ++ [(ptr + t9.toInt, _mm_cvtsi128_si32
      self.val2)] ++ [(ptr + t10.toInt, _mm_cvtsi128_si32 (_mm_shuffle_epi32 self.val2 (_MM_SHUFFLE 0 3 2 1)))] ++ [(ptr +
      t11.toInt, _mm_cvtsi128_si32 (_mm_shuffle_epi32 self.val2 (_MM_SHUFFLE 1 0 3 2)))] ++ [(ptr + t12.toInt,
      _mm_cvtsi128_si32 (_mm_shuffle_epi32 self.val2 (_MM_SHUFFLE 2 1 0 3)))] ++ [(ptr + t13.toInt, _mm_cvtsi128_si32
      self.val3)] ++ [(ptr + t14.toInt, _mm_cvtsi128_si32 (_mm_shuffle_epi32 self.val3 (_MM_SHUFFLE 0 3 2 1)))] ++ [(ptr +
      t15.toInt, _mm_cvtsi128_si32 (_mm_shuffle_epi32 self.val3 (_MM_SHUFFLE 1 0 3 2)))] ++ [(ptr + t16.toInt,
      _mm_cvtsi128_si32 (_mm_shuffle_epi32 self.val3 (_MM_SHUFFLE 2 1 0 3)))] ++ [(ptr + t17.toInt, _mm_cvtsi128_si32
      self.val4)] ++ [(ptr + t18.toInt, _mm_cvtsi128_si32 (_mm_shuffle_epi32 self.val4 (_MM_SHUFFLE 0 3 2 1)))] ++ [(ptr +
      t19.toInt, _mm_cvtsi128_si32 (_mm_shuffle_epi32 self.val4 (_MM_SHUFFLE 1 0 3 2)))] ++ [(ptr + t20.toInt,
      _mm_cvtsi128_si32 (_mm_shuffle_epi32 self.val4 (_MM_SHUFFLE 2 1 0 3)))] ++ [(ptr + t21.toInt, _mm_cvtsi128_si32
      self.val5)] ++ [(ptr + t22.toInt, _mm_cvtsi128_si32 (_mm_shuffle_epi32 self.val5 (_MM_SHUFFLE 0 3 2 1)))] ++ [(ptr +
      t23.toInt, _mm_cvtsi128_si32 (_mm_shuffle_epi32 self.val5 (_MM_SHUFFLE 1 0 3 2)))] ++ [(ptr + t24.toInt,
      _mm_cvtsi128_si32 (_mm_shuffle_epi32 self.val5 (_MM_SHUFFLE 2 1 0 3)))] ++ [(ptr + t25.toInt, _mm_cvtsi128_si32
      self.val6)] ++ [(ptr + t26.toInt, _mm_cvtsi128_si32 (_mm_shuffle_epi32 self.val6 (_MM_SHUFFLE 0 3 2 1)))] ++ [(ptr +
      t27.toInt, _mm_cvtsi128_si32 (_mm_shuffle_epi32 self.val6 (_MM_SHUFFLE 1 0 3 2)))] ++ [(ptr + t28.toInt,
      _mm_cvtsi128_si32 (_mm_shuffle_epi32 self.val6 (_MM_SHUFFLE 2 1 0 3)))] ++ [(ptr + t29.toInt, _mm_cvtsi128_si32
      self.val7)] ++ [(ptr + t30.toInt, _mm_cvtsi128_si32 (_mm_shuffle_epi32 self.val7 (_MM_SHUFFLE 0 3 2 1)))] ++ [(ptr +
      t31.toInt, _mm_cvtsi128_si32 (_mm_shuffle_epi32 self.val7 (_MM_SHUFFLE 1 0 3 2)))] ++ [(ptr + t32.toInt,
      _mm_cvtsi128_si32 (_mm_shuffle_epi32 self.val7 (_MM_SHUFFLE 2 1 0 3)))])

/-- `operator<<`, free function (detail/short_vec_sse_int_32.hpp:690-694) -/
def opStore (E : FEnv) (data : Int) (vec : V) : Option (Writes 32) := do
  let w1 ← store E vec data
  some w1

/-- `operator/=` of `sqrt_reference` (detail/short_vec_sse_int_32.hpp:737-764) -/
def opDivAssignSqrt (E : FEnv) (self : V) (other : SqrtRef) : V :=
  let val0 : M128i := _mm_cvtps_epi32 E (_mm_mul_ps E (_mm_cvtepi32_ps E self.val0) (_mm_rsqrt_ps E (_mm_cvtepi32_ps E
      other.vec.val0)))
  let val1 : M128i := _mm_cvtps_epi32 E (_mm_mul_ps E (_mm_cvtepi32_ps E self.val1) (_mm_rsqrt_ps E (_mm_cvtepi32_ps E
      other.vec.val1)))
  let val2 : M128i := _mm_cvtps_epi32 E (_mm_mul_ps E (_mm_cvtepi32_ps E self.val2) (_mm_rsqrt_ps E (_mm_cvtepi32_ps E
      other.vec.val2)))
  let val3 : M128i := _mm_cvtps_epi32 E (_mm_mul_ps E (_mm_cvtepi32_ps E self.val3) (_mm_rsqrt_ps E (_mm_cvtepi32_ps E
      other.vec.val3)))
  let val4 : M128i := _mm_cvtps_epi32 E (_mm_mul_ps E (_mm_cvtepi32_ps E self.val4) (_mm_rsqrt_ps E (_mm_cvtepi32_ps E
      other.vec.val4)))
  let val5 : M128i := _mm_cvtps_epi32 E (_mm_mul_ps E (_mm_cvtepi32_ps E self.val5) (_mm_rsqrt_ps E (_mm_cvtepi32_ps E
      other.vec.val5)))
  let val6 : M128i := _mm_cvtps_epi32 E (_mm_mul_ps E (_mm_cvtepi32_ps E self.val6) (_mm_rsqrt_ps E (_mm_cvtepi32_ps E
      other.vec.val6)))
  let val7 : M128i := _mm_cvtps_epi32 E (_mm_mul_ps E (_mm_cvtepi32_ps E self.val7) (_mm_rsqrt_ps E (_mm_cvtepi32_ps E
      other.vec.val7)))
  ⟨val0, val1, val2, val3, val4, val5, val6, val7⟩

/-- `operator/` of `sqrt_reference` (detail/short_vec_sse_int_32.hpp:766-794) -/
def opDivSqrt (E : FEnv) (self : V) (other : SqrtRef) : V :=
  ofRegs E (_mm_cvtps_epi32 E (_mm_mul_ps E (_mm_cvtepi32_ps E self.val0) (_mm_rsqrt_ps E (_mm_cvtepi32_ps E other.vec.val0))))
      (_mm_cvtps_epi32 E (_mm_mul_ps E (_mm_cvtepi32_ps E self.val1) (_mm_rsqrt_ps E (_mm_cvtepi32_ps E other.vec.val1))))
      (_mm_cvtps_epi32 E (_mm_mul_ps E (_mm_cvtepi32_ps E self.val2) (_mm_rsqrt_ps E (_mm_cvtepi32_ps E other.vec.val2))))
      (_mm_cvtps_epi32 E (_mm_mul_ps E (_mm_cvtepi32_ps E self.val3) (_mm_rsqrt_ps E (_mm_cvtepi32_ps E other.vec.val3))))
      (_mm_cvtps_epi32 E (_mm_mul_ps E (_mm_cvtepi32_ps E self.val4) (_mm_rsqrt_ps E (_mm_cvtepi32_ps E other.vec.val4))))
      (_mm_cvtps_epi32 E (_mm_mul_ps E (_mm_cvtepi32_ps E self.val5) (_mm_rsqrt_ps E (_mm_cvtepi32_ps E other.vec.val5))))
      (_mm_cvtps_epi32 E (_mm_mul_ps E (_mm_cvtepi32_ps E self.val6) (_mm_rsqrt_ps E (_mm_cvtepi32_ps E other.vec.val6))))
      (_mm_cvtps_epi32 E (_mm_mul_ps E (_mm_cvtepi32_ps E self.val7) (_mm_rsqrt_ps E (_mm_cvtepi32_ps E other.vec.val7))))

/-- `sqrt`, free function (detail/short_vec_sse_int_32.hpp:796-800) -/
def sqrtFn (E : FEnv) (vec : V) : SqrtRef := SqrtRef.mk vec

/-- `operator<<`, free function (detail/short_vec_sse_int_32.hpp:802-826) -/
def print (E : FEnv) (vec : V) : List (Out 32) :=
  [.s "[", .v vec.val0.x0, .s ", ", .v vec.val0.x1, .s ", ", .v vec.val0.x2, .s ", ", .v vec.val0.x3, .s ", ", .v vec.val1.x0,
      .s ", ", .v vec.val1.x1, .s ", ", .v vec.val1.x2, .s ", ", .v vec.val1.x3, .s ", ", .v vec.val2.x0, .s ", ", .v
      vec.val2.x1, .s ", ", .v vec.val2.x2, .s ", ", .v vec.val2.x3, .s ", ", .v vec.val3.x0, .s ", ", .v vec.val3.x1, .s ", ",
      .v vec.val3.x2, .s ", ", .v vec.val3.x3, .s ", ", .v vec.val4.x0, .s ", ", .v vec.val4.x1, .s ", ", .v vec.val4.x2, .s
      ", ", .v vec.val4.x3, .s ", ", .v vec.val5.x0, .s ", ", .v vec.val5.x1, .s ", ", .v vec.val5.x2, .s ", ", .v vec.val5.x3,
      .s ", ", .v vec.val6.x0, .s ", ", .v vec.val6.x1, .s ", ", .v vec.val6.x2, .s ", ", .v vec.val6.x3, .s ", ", .v
      vec.val7.x0, .s ", ", .v vec.val7.x1, .s ", ", .v vec.val7.x2, .s ", ", .v vec.val7.x3, .s "]"]

end LFA.SV.SseInt32
