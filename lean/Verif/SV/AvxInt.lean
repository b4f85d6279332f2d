/-
  Generated by tools/sv_gen.py from detail/short_vec_avx_int_*.hpp.
-/
import Verif.SV.Base
set_option linter.unusedVariables false
set_option autoImplicit false

namespace LFA.SV.AvxInt8

/-- members of `short_vec<int, 8>` (detail/short_vec_avx_int_8.hpp:53) -/
structure V where
  val : M256i

/-- lanes, from low to high -/
def V.lanes (v : V) : List (BitVec 32) := SV.lanes v.val

/-- `sqrt_reference<int, 8>`: keeps the vector until the square root is needed -/
structure SqrtRef where
  vec : V

/-- constructor (detail/short_vec_avx_int_8.hpp:65-68) -/
def bcast (E : FEnv) (data : BitVec 32) : V := ⟨_mm256_set1_epi32 data⟩

/-- constructor (detail/short_vec_avx_int_8.hpp:76-79) -/
def ofRegs (E : FEnv) (val : M256i) : V := ⟨val⟩

/-- `load` (detail/short_vec_avx_int_8.hpp:162-166) -/
def load (E : FEnv) (m : Mem 32) (self : V) (data : Int) : Option V := do
  let t1 ← _mm256_loadu_si256 m data
  let val : M256i := t1
  some ⟨val⟩

/-- `store` (detail/short_vec_avx_int_8.hpp:175-179) -/
def store (E : FEnv) (self : V) (data : Int) : Option (Writes 32) := do
  let w1 ← _mm256_storeu_si256 data self.val
  some w1

/-- `sqrt` (detail/short_vec_avx_int_8.hpp:154-160) -/
def sqrt (E : FEnv) (self : V) : V :=
  ofRegs E (_mm256_cvtps_epi32 E (_mm256_sqrt_ps E (_mm256_cvtepi32_ps E self.val)))

/-- constructor of `sqrt_reference` (detail/short_vec_avx_int_8.hpp:244-249) -/
def ofSqrt (E : FEnv) (other : SqrtRef) : V :=
  ⟨_mm256_cvtps_epi32 E (_mm256_sqrt_ps E (_mm256_cvtepi32_ps E other.vec.val))⟩

/-- constructor (detail/short_vec_avx_int_8.hpp:70-74) -/
def ofPtr (E : FEnv) (m : Mem 32) (data : Int) : Option V := do
  let v1 ← load E m ⟨(uninit : M256i)⟩ data
  some ⟨v1.val⟩

/-- constructor (detail/short_vec_avx_int_8.hpp:82-87) -/
def ofList (E : FEnv) (m : Mem 32) (il : Int) : Option V := do
  let v1 ← load E m ⟨(uninit : M256i)⟩ il
  some ⟨v1.val⟩

/-- `operator-=` (detail/short_vec_avx_int_8.hpp:93-97) -/
def opSubAssign (E : FEnv) (self : V) (other : V) : V :=
  let val : M256i := _mm256_sub_epi32 self.val other.val
  ⟨val⟩

/-- `operator-` (detail/short_vec_avx_int_8.hpp:99-104) -/
def opSub (E : FEnv) (self : V) (other : V) : V := ofRegs E (_mm256_sub_epi32 self.val other.val)

/-- `operator+=` (detail/short_vec_avx_int_8.hpp:106-110) -/
def opAddAssign (E : FEnv) (self : V) (other : V) : V :=
  let val : M256i := _mm256_add_epi32 self.val other.val
  ⟨val⟩

/-- `operator+` (detail/short_vec_avx_int_8.hpp:112-117) -/
def opAdd (E : FEnv) (self : V) (other : V) : V := ofRegs E (_mm256_add_epi32 self.val other.val)

/-- `operator*=` (detail/short_vec_avx_int_8.hpp:119-123) -/
def opMulAssign (E : FEnv) (self : V) (other : V) : V :=
  let val : M256i := _mm256_mullo_epi32 self.val other.val
  ⟨val⟩

/-- `operator*` (detail/short_vec_avx_int_8.hpp:125-130) -/
def opMul (E : FEnv) (self : V) (other : V) : V := ofRegs E (_mm256_mullo_epi32 self.val other.val)

/-- `operator/=` (detail/short_vec_avx_int_8.hpp:132-137) -/
def opDivAssign (E : FEnv) (self : V) (other : V) : V :=
  let val : M256i := _mm256_cvtps_epi32 E (_mm256_div_ps E (_mm256_cvtepi32_ps E self.val) (_mm256_cvtepi32_ps E other.val))
  ⟨val⟩

/-- `operator/` (detail/short_vec_avx_int_8.hpp:142-149) -/
def opDiv (E : FEnv) (self : V) (other : V) : V :=
  ofRegs E (_mm256_cvttps_epi32 E (_mm256_div_ps E (_mm256_cvtepi32_ps E self.val) (_mm256_cvtepi32_ps E other.val)))

/-- `load_aligned` (detail/short_vec_avx_int_8.hpp:168-173) -/
def load_aligned (E : FEnv) (m : Mem 32) (self : V) (data : Int) : Option V := do
  assertAligned 4 data 32
  let t1 ← _mm256_load_si256 m data
  let val : M256i := t1
  some ⟨val⟩

/-- `store_aligned` (detail/short_vec_avx_int_8.hpp:181-186) -/
def store_aligned (E : FEnv) (self : V) (data : Int) : Option (Writes 32) := do
  assertAligned 4 data 32
  let w1 ← _mm256_store_si256 data self.val
  some w1

/-- `store_nt` (detail/short_vec_avx_int_8.hpp:188-193) -/
def store_nt (E : FEnv) (self : V) (data : Int) : Option (Writes 32) := do
  assertAligned 4 data 32
  let w1 ← _mm256_stream_si256 data self.val
  some w1

/-- `gather` (detail/short_vec_avx_int_8.hpp:195-200) -/
def gather (E : FEnv) (m : Mem 32) (mo : Mem 32) (self : V) (ptr : Int) (offsets : Int) : Option V := do
  let t1 ← _mm256_loadu_si256 mo offsets
  let indices : M256i := t1
  let t2 ← _mm256_i32gather_epi32 m ptr indices 4
  let val : M256i := t2
  some ⟨val⟩

/-- `scatter` (detail/short_vec_avx_int_8.hpp:202-213) -/
def scatter (E : FEnv) (mo : Mem 32) (self : V) (ptr : Int) (offsets : Int) : Option (Writes 32) := do
  let t1 ← mo (offsets + 0)
  let t2 ← mo (offsets + 1)
  let t3 ← mo (offsets + 2)
  let t4 ← mo (offsets + 3)
  let t5 ← mo (offsets + 4)
  let t6 ← mo (offsets + 5)
  let t7 ← mo (offsets + 6)
  let t8 ← mo (offsets + 7)
  some ([(ptr + t1.toInt, _mm256_extract_epi32 self.val 0)] ++ [(ptr + t2.toInt, _mm256_extract_epi32 self.val 1)] ++ [(ptr +
      t3.toInt, _mm256_extract_epi32 self.val 2)] ++ [(ptr + t4.toInt, _mm256_extract_epi32 self.val 3)] ++ [(ptr + t5.toInt,
      _mm256_extract_epi32 self.val 4)] ++ [(ptr + t6.toInt, _mm256_extract_epi32 self.val 5)] ++ [(ptr + t7.toInt,
      _mm256_extract_epi32 self.val 6)] ++ [(ptr + t8.toInt, _mm256_extract_epi32 self.val 7)])

/-- `operator<<`, free function (detail/short_vec_avx_int_8.hpp:219-223) -/
def opStore (E : FEnv) (data : Int) (vec : V) : Option (Writes 32) := do
  let w1 ← store E vec data
  some w1

/-- `operator/=` of `sqrt_reference` (detail/short_vec_avx_int_8.hpp:251-257) -/
def opDivAssignSqrt (E : FEnv) (self : V) (other : SqrtRef) : V :=
  let val : M256i := _mm256_cvtps_epi32 E (_mm256_mul_ps E (_mm256_cvtepi32_ps E self.val) (_mm256_rsqrt_ps E
      (_mm256_cvtepi32_ps E other.vec.val)))
  ⟨val⟩

/-- `operator/` of `sqrt_reference` (detail/short_vec_avx_int_8.hpp:259-266) -/
def opDivSqrt (E : FEnv) (self : V) (other : SqrtRef) : V :=
  ofRegs E (_mm256_cvtps_epi32 E (_mm256_mul_ps E (_mm256_cvtepi32_ps E self.val) (_mm256_rsqrt_ps E (_mm256_cvtepi32_ps E
      other.vec.val))))

/-- `sqrt`, free function (detail/short_vec_avx_int_8.hpp:268-272) -/
def sqrtFn (E : FEnv) (vec : V) : SqrtRef := SqrtRef.mk vec

/-- `operator<<`, free function (detail/short_vec_avx_int_8.hpp:274-285) -/
def print (E : FEnv) (vec : V) : List (Out 32) :=
  [.s "[", .v vec.val.x0.x0, .s ", ", .v vec.val.x0.x1, .s ", ", .v vec.val.x0.x2, .s ", ", .v vec.val.x0.x3, .s ", ", .v
      vec.val.x1.x0, .s ", ", .v vec.val.x1.x1, .s ", ", .v vec.val.x1.x2, .s ", ", .v vec.val.x1.x3, .s "]"]

end LFA.SV.AvxInt8

namespace LFA.SV.AvxInt16

/-- members of `short_vec<int, 16>` (detail/short_vec_avx_int_16.hpp:51) -/
structure V where
  val0 : M256i
  val1 : M256i

/-- lanes, from low to high -/
def V.lanes (v : V) : List (BitVec 32) := SV.lanes v.val0 ++ (SV.lanes v.val1)

/-- `sqrt_reference<int, 16>`: keeps the vector until the square root is needed -/
structure SqrtRef where
  vec : V

/-- constructor (detail/short_vec_avx_int_16.hpp:63-67) -/
def bcast (E : FEnv) (data : BitVec 32) : V := ⟨_mm256_set1_epi32 data, _mm256_set1_epi32 data⟩

/-- constructor (detail/short_vec_avx_int_16.hpp:75-81) -/
def ofRegs (E : FEnv) (val1 : M256i) (val2 : M256i) : V := ⟨val1, val2⟩

/-- `load` (detail/short_vec_avx_int_16.hpp:177-182) -/
def load (E : FEnv) (m : Mem 32) (self : V) (data : Int) : Option V := do
  let t1 ← _mm256_loadu_si256 m (data + 0)
  let val0 : M256i := t1
  let t2 ← _mm256_loadu_si256 m (data + 8)
  let val1 : M256i := t2
  some ⟨val0, val1⟩

/-- `store` (detail/short_vec_avx_int_16.hpp:192-197) -/
def store (E : FEnv) (self : V) (data : Int) : Option (Writes 32) := do
  let w1 ← _mm256_storeu_si256 (data + 0) self.val0
  let w2 ← _mm256_storeu_si256 (data + 8) self.val1
  some (w1 ++ w2)

/-- `sqrt` (detail/short_vec_avx_int_16.hpp:167-175) -/
def sqrt (E : FEnv) (self : V) : V :=
  ofRegs E (_mm256_cvtps_epi32 E (_mm256_sqrt_ps E (_mm256_cvtepi32_ps E self.val0))) (_mm256_cvtps_epi32 E (_mm256_sqrt_ps E
      (_mm256_cvtepi32_ps E self.val1)))

/-- constructor of `sqrt_reference` (detail/short_vec_avx_int_16.hpp:274-280) -/
def ofSqrt (E : FEnv) (other : SqrtRef) : V :=
  ⟨_mm256_cvtps_epi32 E (_mm256_sqrt_ps E (_mm256_cvtepi32_ps E other.vec.val0)), _mm256_cvtps_epi32 E (_mm256_sqrt_ps E
      (_mm256_cvtepi32_ps E other.vec.val1))⟩

/-- constructor (detail/short_vec_avx_int_16.hpp:69-73) -/
def ofPtr (E : FEnv) (m : Mem 32) (data : Int) : Option V := do
  let v1 ← load E m ⟨(uninit : M256i), (uninit : M256i)⟩ data
  some ⟨v1.val0, v1.val1⟩

/-- constructor (detail/short_vec_avx_int_16.hpp:84-89) -/
def ofList (E : FEnv) (m : Mem 32) (il : Int) : Option V := do
  let v1 ← load E m ⟨(uninit : M256i), (uninit : M256i)⟩ il
  some ⟨v1.val0, v1.val1⟩

/-- `operator-=` (detail/short_vec_avx_int_16.hpp:95-100) -/
def opSubAssign (E : FEnv) (self : V) (other : V) : V :=
  let val0 : M256i := _mm256_sub_epi32 self.val0 other.val0
  let val1 : M256i := _mm256_sub_epi32 self.val1 other.val1
  ⟨val0, val1⟩

/-- `operator-` (detail/short_vec_avx_int_16.hpp:102-108) -/
def opSub (E : FEnv) (self : V) (other : V) : V :=
  ofRegs E (_mm256_sub_epi32 self.val0 other.val0) (_mm256_sub_epi32 self.val1 other.val1)

/-- `operator+=` (detail/short_vec_avx_int_16.hpp:110-115) -/
def opAddAssign (E : FEnv) (self : V) (other : V) : V :=
  let val0 : M256i := _mm256_add_epi32 self.val0 other.val0
  let val1 : M256i := _mm256_add_epi32 self.val1 other.val1
  ⟨val0, val1⟩

/-- `operator+` (detail/short_vec_avx_int_16.hpp:117-123) -/
def opAdd (E : FEnv) (self : V) (other : V) : V :=
  ofRegs E (_mm256_add_epi32 self.val0 other.val0) (_mm256_add_epi32 self.val1 other.val1)

/-- `operator*=` (detail/short_vec_avx_int_16.hpp:125-130) -/
def opMulAssign (E : FEnv) (self : V) (other : V) : V :=
  let val0 : M256i := _mm256_mullo_epi32 self.val0 other.val0
  let val1 : M256i := _mm256_mullo_epi32 self.val1 other.val1
  ⟨val0, val1⟩

/-- `operator*` (detail/short_vec_avx_int_16.hpp:132-138) -/
def opMul (E : FEnv) (self : V) (other : V) : V :=
  ofRegs E (_mm256_mullo_epi32 self.val0 other.val0) (_mm256_mullo_epi32 self.val1 other.val1)

/-- `operator/=` (detail/short_vec_avx_int_16.hpp:140-147) -/
def opDivAssign (E : FEnv) (self : V) (other : V) : V :=
  let val0 : M256i := _mm256_cvtps_epi32 E (_mm256_div_ps E (_mm256_cvtepi32_ps E self.val0) (_mm256_cvtepi32_ps E other.val0))
  let val1 : M256i := _mm256_cvtps_epi32 E (_mm256_div_ps E (_mm256_cvtepi32_ps E self.val1) (_mm256_cvtepi32_ps E other.val1))
  ⟨val0, val1⟩

/-- `operator/` (detail/short_vec_avx_int_16.hpp:152-162) -/
def opDiv (E : FEnv) (self : V) (other : V) : V :=
  ofRegs E (_mm256_cvttps_epi32 E (_mm256_div_ps E (_mm256_cvtepi32_ps E self.val0) (_mm256_cvtepi32_ps E other.val0)))
      (_mm256_cvttps_epi32 E (_mm256_div_ps E (_mm256_cvtepi32_ps E self.val1) (_mm256_cvtepi32_ps E other.val1)))

/-- `load_aligned` (detail/short_vec_avx_int_16.hpp:184-190) -/
def load_aligned (E : FEnv) (m : Mem 32) (self : V) (data : Int) : Option V := do
  assertAligned 4 data 32
  let t1 ← _mm256_load_si256 m (data + 0)
  let val0 : M256i := t1
  let t2 ← _mm256_load_si256 m (data + 8)
  let val1 : M256i := t2
  some ⟨val0, val1⟩

/-- `store_aligned` (detail/short_vec_avx_int_16.hpp:199-205) -/
def store_aligned (E : FEnv) (self : V) (data : Int) : Option (Writes 32) := do
  assertAligned 4 data 32
  let w1 ← _mm256_store_si256 (data + 0) self.val0
  let w2 ← _mm256_store_si256 (data + 8) self.val1
  some (w1 ++ w2)

/-- `store_nt` (detail/short_vec_avx_int_16.hpp:207-213) -/
def store_nt (E : FEnv) (self : V) (data : Int) : Option (Writes 32) := do
  assertAligned 4 data 32
  let w1 ← _mm256_stream_si256 (data + 0) self.val0
  let w2 ← _mm256_stream_si256 (data + 8) self.val1
  some (w1 ++ w2)

/-- `gather` (detail/short_vec_avx_int_16.hpp:215-222) -/
def gather (E : FEnv) (m : Mem 32) (mo : Mem 32) (self : V) (ptr : Int) (offsets : Int) : Option V := do
  let t1 ← _mm256_loadu_si256 mo (offsets + 0)
  let indices1 : M256i := t1
  let t2 ← _mm256_loadu_si256 mo (offsets + 8)
  let indices2 : M256i := t2
  let t3 ← _mm256_i32gather_epi32 m ptr indices1 4
  let val0 : M256i := t3
  let t4 ← _mm256_i32gather_epi32 m ptr indices2 4
  let val1 : M256i := t4
  some ⟨val0, val1⟩

/-- `scatter` (detail/short_vec_avx_int_16.hpp:224-243) -/
def scatter (E : FEnv) (mo : Mem 32) (self : V) (ptr : Int) (offsets : Int) : Option (Writes 32) := do
  let t1 ← mo (offsets + 0)
  let t2 ← mo (offsets + 1)
  let t3 ← mo (offsets + 2)
  let t4 ← mo (offsets + 3)
  let t5 ← mo (offsets + 4)
  let t6 ← mo (offsets + 5)
  let t7 ← mo (offsets + 6)
  let t8 ← mo (offsets + 7)
  let t9 ← mo (offsets + 8)
  let t10 ← mo (offsets + 9)
  let t11 ← mo (offsets + 10)
  let t12 ← mo (offsets + 11)
  let t13 ← mo (offsets + 12)
  let t14 ← mo (offsets + 13)
  let t15 ← mo (offsets + 14)
  let t16 ← mo (offsets + 15)
  some ([(ptr + t1.toInt, _mm256_extract_epi32 self.val0 0)] ++ [(ptr + t2.toInt, _mm256_extract_epi32 self.val0 1)] ++ [(ptr +
      t3.toInt, _mm256_extract_epi32 self.val0 2)] ++ [(ptr + t4.toInt, _mm256_extract_epi32 self.val0 3)] ++ [(ptr + t5.toInt,
      _mm256_extract_epi32 self.val0 4)] ++ [(ptr + t6.toInt, _mm256_extract_epi32 self.val0 5)] ++ [(ptr + t7.toInt,
      _mm256_extract_epi32 self.val0 6)] ++ [(ptr + t8.toInt, _mm256_extract_epi32 self.val0 7)] ++ [(ptr + t9.toInt,
      _mm256_extract_epi32 self.val1 0)] ++ [(ptr + t10.toInt, _mm256_extract_epi32 self.val1 1)] ++ [(ptr + t11.toInt,
      _mm256_extract_epi32 self.val1 2)] ++ [(ptr + t12.toInt, _mm256_extract_epi32 self.val1 3)] ++ [(ptr + t13.toInt,
      _mm256_extract_epi32 self.val1 4)] ++ [(ptr + t14.toInt, _mm256_extract_epi32 self.val1 5)] ++ [(ptr + t15.toInt,
      _mm256_extract_epi32 self.val1 6)] ++ [(ptr + t16.toInt, _mm256_extract_epi32 self.val1 7)])

/-- `operator<<`, free function (detail/short_vec_avx_int_16.hpp:249-253) -/
def opStore (E : FEnv) (data : Int) (vec : V) : Option (Writes 32) := do
  let w1 ← store E vec data
  some w1

/-- `operator/=` of `sqrt_reference` (detail/short_vec_avx_int_16.hpp:282-291) -/
def opDivAssignSqrt (E : FEnv) (self : V) (other : SqrtRef) : V :=
  let val0 : M256i := _mm256_cvtps_epi32 E (_mm256_mul_ps E (_mm256_cvtepi32_ps E self.val0) (_mm256_rsqrt_ps E
      (_mm256_cvtepi32_ps E other.vec.val0)))
  let val1 : M256i := _mm256_cvtps_epi32 E (_mm256_mul_ps E (_mm256_cvtepi32_ps E self.val1) (_mm256_rsqrt_ps E
      (_mm256_cvtepi32_ps E other.vec.val1)))
  ⟨val0, val1⟩

/-- `operator/` of `sqrt_reference` (detail/short_vec_avx_int_16.hpp:293-303) -/
def opDivSqrt (E : FEnv) (self : V) (other : SqrtRef) : V :=
  ofRegs E (_mm256_cvtps_epi32 E (_mm256_mul_ps E (_mm256_cvtepi32_ps E self.val0) (_mm256_rsqrt_ps E (_mm256_cvtepi32_ps E
      other.vec.val0)))) (_mm256_cvtps_epi32 E (_mm256_mul_ps E (_mm256_cvtepi32_ps E self.val1) (_mm256_rsqrt_ps E
      (_mm256_cvtepi32_ps E other.vec.val1))))

/-- `sqrt`, free function (detail/short_vec_avx_int_16.hpp:305-309) -/
def sqrtFn (E : FEnv) (vec : V) : SqrtRef := SqrtRef.mk vec

/-- `operator<<`, free function (detail/short_vec_avx_int_16.hpp:311-325) -/
def print (E : FEnv) (vec : V) : List (Out 32) :=
  [.s "[", .v vec.val0.x0.x0, .s ", ", .v vec.val0.x0.x1, .s ", ", .v vec.val0.x0.x2, .s ", ", .v vec.val0.x0.x3, .s ", ", .v
      vec.val0.x1.x0, .s ", ", .v vec.val0.x1.x1, .s ", ", .v vec.val0.x1.x2, .s ", ", .v vec.val0.x1.x3, .s ", ", .v
      vec.val1.x0.x0, .s ", ", .v vec.val1.x0.x1, .s ", ", .v vec.val1.x0.x2, .s ", ", .v vec.val1.x0.x3, .s ", ", .v
      vec.val1.x1.x0, .s ", ", .v vec.val1.x1.x1, .s ", ", .v vec.val1.x1.x2, .s ", ", .v vec.val1.x1.x3, .s "]"]

end LFA.SV.AvxInt16

namespace LFA.SV.AvxInt32

/-- members of `short_vec<int, 32>` (detail/short_vec_avx_int_32.hpp:51) -/
structure V where
  val0 : M256i
  val1 : M256i
  val2 : M256i
  val3 : M256i

/-- lanes, from low to high -/
def V.lanes (v : V) : List (BitVec 32) := SV.lanes v.val0 ++ (SV.lanes v.val1 ++ (SV.lanes v.val2 ++ (SV.lanes v.val3)))

/-- `sqrt_reference<int, 32>`: keeps the vector until the square root is needed -/
structure SqrtRef where
  vec : V

/-- constructor (detail/short_vec_avx_int_32.hpp:63-69) -/
def bcast (E : FEnv) (data : BitVec 32) : V :=
  ⟨_mm256_set1_epi32 data, _mm256_set1_epi32 data, _mm256_set1_epi32 data, _mm256_set1_epi32 data⟩

/-- constructor (detail/short_vec_avx_int_32.hpp:77-87) -/
def ofRegs (E : FEnv) (val1 : M256i) (val2 : M256i) (val3 : M256i) (val4 : M256i) : V := ⟨val1, val2, val3, val4⟩

/-- `load` (detail/short_vec_avx_int_32.hpp:209-216) -/
def load (E : FEnv) (m : Mem 32) (self : V) (data : Int) : Option V := do
  let t1 ← _mm256_loadu_si256 m (data + 0)
  let val0 : M256i := t1
  let t2 ← _mm256_loadu_si256 m (data + 8)
  let val1 : M256i := t2
  let t3 ← _mm256_loadu_si256 m (data + 16)
  let val2 : M256i := t3
  let t4 ← _mm256_loadu_si256 m (data + 24)
  let val3 : M256i := t4
  some ⟨val0, val1, val2, val3⟩

/-- `store` (detail/short_vec_avx_int_32.hpp:228-235) -/
def store (E : FEnv) (self : V) (data : Int) : Option (Writes 32) := do
  let w1 ← _mm256_storeu_si256 (data + 0) self.val0
  let w2 ← _mm256_storeu_si256 (data + 8) self.val1
  let w3 ← _mm256_storeu_si256 (data + 16) self.val2
  let w4 ← _mm256_storeu_si256 (data + 24) self.val3
  some (w1 ++ w2 ++ w3 ++ w4)

/-- `sqrt` (detail/short_vec_avx_int_32.hpp:195-207) -/
def sqrt (E : FEnv) (self : V) : V :=
  ofRegs E (_mm256_cvtps_epi32 E (_mm256_sqrt_ps E (_mm256_cvtepi32_ps E self.val0))) (_mm256_cvtps_epi32 E (_mm256_sqrt_ps E
      (_mm256_cvtepi32_ps E self.val1))) (_mm256_cvtps_epi32 E (_mm256_sqrt_ps E (_mm256_cvtepi32_ps E self.val2)))
      (_mm256_cvtps_epi32 E (_mm256_sqrt_ps E (_mm256_cvtepi32_ps E self.val3)))

/-- constructor of `sqrt_reference` (detail/short_vec_avx_int_32.hpp:336-347) -/
def ofSqrt (E : FEnv) (other : SqrtRef) : V :=
  ⟨_mm256_cvtps_epi32 E (_mm256_sqrt_ps E (_mm256_cvtepi32_ps E other.vec.val0)), _mm256_cvtps_epi32 E (_mm256_sqrt_ps E
      (_mm256_cvtepi32_ps E other.vec.val1)), _mm256_cvtps_epi32 E (_mm256_sqrt_ps E (_mm256_cvtepi32_ps E other.vec.val2)),
      _mm256_cvtps_epi32 E (_mm256_sqrt_ps E (_mm256_cvtepi32_ps E other.vec.val3))⟩

/-- constructor (detail/short_vec_avx_int_32.hpp:71-75) -/
def ofPtr (E : FEnv) (m : Mem 32) (data : Int) : Option V := do
  let v1 ← load E m ⟨(uninit : M256i), (uninit : M256i), (uninit : M256i), (uninit : M256i)⟩ data
  some ⟨v1.val0, v1.val1, v1.val2, v1.val3⟩

/-- constructor (detail/short_vec_avx_int_32.hpp:90-95) -/
def ofList (E : FEnv) (m : Mem 32) (il : Int) : Option V := do
  let v1 ← load E m ⟨(uninit : M256i), (uninit : M256i), (uninit : M256i), (uninit : M256i)⟩ il
  some ⟨v1.val0, v1.val1, v1.val2, v1.val3⟩

/-- `operator-=` (detail/short_vec_avx_int_32.hpp:101-108) -/
def opSubAssign (E : FEnv) (self : V) (other : V) : V :=
  let val0 : M256i := _mm256_sub_epi32 self.val0 other.val0
  let val1 : M256i := _mm256_sub_epi32 self.val1 other.val1
  let val2 : M256i := _mm256_sub_epi32 self.val2 other.val2
  let val3 : M256i := _mm256_sub_epi32 self.val3 other.val3
  ⟨val0, val1, val2, val3⟩

/-- `operator-` (detail/short_vec_avx_int_32.hpp:110-118) -/
def opSub (E : FEnv) (self : V) (other : V) : V :=
  ofRegs E (_mm256_sub_epi32 self.val0 other.val0) (_mm256_sub_epi32 self.val1 other.val1) (_mm256_sub_epi32 self.val2
      other.val2) (_mm256_sub_epi32 self.val3 other.val3)

/-- `operator+=` (detail/short_vec_avx_int_32.hpp:120-127) -/
def opAddAssign (E : FEnv) (self : V) (other : V) : V :=
  let val0 : M256i := _mm256_add_epi32 self.val0 other.val0
  let val1 : M256i := _mm256_add_epi32 self.val1 other.val1
  let val2 : M256i := _mm256_add_epi32 self.val2 other.val2
  let val3 : M256i := _mm256_add_epi32 self.val3 other.val3
  ⟨val0, val1, val2, val3⟩

/-- `operator+` (detail/short_vec_avx_int_32.hpp:129-137) -/
def opAdd (E : FEnv) (self : V) (other : V) : V :=
  ofRegs E (_mm256_add_epi32 self.val0 other.val0) (_mm256_add_epi32 self.val1 other.val1) (_mm256_add_epi32 self.val2
      other.val2) (_mm256_add_epi32 self.val3 other.val3)

/-- `operator*=` (detail/short_vec_avx_int_32.hpp:139-146) -/
def opMulAssign (E : FEnv) (self : V) (other : V) : V :=
  let val0 : M256i := _mm256_mullo_epi32 self.val0 other.val0
  let val1 : M256i := _mm256_mullo_epi32 self.val1 other.val1
  let val2 : M256i := _mm256_mullo_epi32 self.val2 other.val2
  let val3 : M256i := _mm256_mullo_epi32 self.val3 other.val3
  ⟨val0, val1, val2, val3⟩

/-- `operator*` (detail/short_vec_avx_int_32.hpp:148-156) -/
def opMul (E : FEnv) (self : V) (other : V) : V :=
  ofRegs E (_mm256_mullo_epi32 self.val0 other.val0) (_mm256_mullo_epi32 self.val1 other.val1) (_mm256_mullo_epi32 self.val2
      other.val2) (_mm256_mullo_epi32 self.val3 other.val3)

/-- `operator/=` (detail/short_vec_avx_int_32.hpp:158-169) -/
def opDivAssign (E : FEnv) (self : V) (other : V) : V :=
  let val0 : M256i := _mm256_cvtps_epi32 E (_mm256_div_ps E (_mm256_cvtepi32_ps E self.val0) (_mm256_cvtepi32_ps E other.val0))
  let val1 : M256i := _mm256_cvtps_epi32 E (_mm256_div_ps E (_mm256_cvtepi32_ps E self.val1) (_mm256_cvtepi32_ps E other.val1))
  let val2 : M256i := _mm256_cvtps_epi32 E (_mm256_div_ps E (_mm256_cvtepi32_ps E self.val2) (_mm256_cvtepi32_ps E other.val2))
  let val3 : M256i := _mm256_cvtps_epi32 E (_mm256_div_ps E (_mm256_cvtepi32_ps E self.val3) (_mm256_cvtepi32_ps E other.val3))
  ⟨val0, val1, val2, val3⟩

/-- `operator/` (detail/short_vec_avx_int_32.hpp:174-190) -/
def opDiv (E : FEnv) (self : V) (other : V) : V :=
  ofRegs E (_mm256_cvttps_epi32 E (_mm256_div_ps E (_mm256_cvtepi32_ps E self.val0) (_mm256_cvtepi32_ps E other.val0)))
      (_mm256_cvttps_epi32 E (_mm256_div_ps E (_mm256_cvtepi32_ps E self.val1) (_mm256_cvtepi32_ps E other.val1)))
      (_mm256_cvttps_epi32 E (_mm256_div_ps E (_mm256_cvtepi32_ps E self.val2) (_mm256_cvtepi32_ps E other.val2)))
      (_mm256_cvttps_epi32 E (_mm256_div_ps E (_mm256_cvtepi32_ps E self.val3) (_mm256_cvtepi32_ps E other.val3)))

/-- `load_aligned` (detail/short_vec_avx_int_32.hpp:218-226) -/
def load_aligned (E : FEnv) (m : Mem 32) (self : V) (data : Int) : Option V := do
  assertAligned 4 data 32
  let t1 ← _mm256_load_si256 m (data + 0)
  let val0 : M256i := t1
  let t2 ← _mm256_load_si256 m (data + 8)
  let val1 : M256i := t2
  let t3 ← _mm256_load_si256 m (data + 16)
  let val2 : M256i := t3
  let t4 ← _mm256_load_si256 m (data + 24)
  let val3 : M256i := t4
  some ⟨val0, val1, val2, val3⟩

/-- `store_aligned` (detail/short_vec_avx_int_32.hpp:237-245) -/
def store_aligned (E : FEnv) (self : V) (data : Int) : Option (Writes 32) := do
  assertAligned 4 data 32
  let w1 ← _mm256_store_si256 (data + 0) self.val0
  let w2 ← _mm256_store_si256 (data + 8) self.val1
  let w3 ← _mm256_store_si256 (data + 16) self.val2
  let w4 ← _mm256_store_si256 (data + 24) self.val3
  some (w1 ++ w2 ++ w3 ++ w4)

/-- `store_nt` (detail/short_vec_avx_int_32.hpp:247-255) -/
def store_nt (E : FEnv) (self : V) (data : Int) : Option (Writes 32) := do
  assertAligned 4 data 32
  let w1 ← _mm256_stream_si256 (data + 0) self.val0
  let w2 ← _mm256_stream_si256 (data + 8) self.val1
  let w3 ← _mm256_stream_si256 (data + 16) self.val2
  let w4 ← _mm256_stream_si256 (data + 24) self.val3
  some (w1 ++ w2 ++ w3 ++ w4)

/-- `gather` (detail/short_vec_avx_int_32.hpp:257-268) -/
def gather (E : FEnv) (m : Mem 32) (mo : Mem 32) (self : V) (ptr : Int) (offsets : Int) : Option V := do
  let t1 ← _mm256_loadu_si256 mo (offsets + 0)
  let indices1 : M256i := t1
  let t2 ← _mm256_loadu_si256 mo (offsets + 8)
  let indices2 : M256i := t2
  let t3 ← _mm256_loadu_si256 mo (offsets + 16)
  let indices3 : M256i := t3
  let t4 ← _mm256_loadu_si256 mo (offsets + 24)
  let indices4 : M256i := t4
  let t5 ← _mm256_i32gather_epi32 m ptr indices1 4
  let val0 : M256i := t5
  let t6 ← _mm256_i32gather_epi32 m ptr indices2 4
  let val1 : M256i := t6
  let t7 ← _mm256_i32gather_epi32 m ptr indices3 4
  let val2 : M256i := t7
  let t8 ← _mm256_i32gather_epi32 m ptr indices4 4
  let val3 : M256i := t8
  some ⟨val0, val1, val2, val3⟩

/-- `scatter` (detail/short_vec_avx_int_32.hpp:270-305) -/
def scatter (E : FEnv) (mo : Mem 32) (self : V) (ptr : Int) (offsets : Int) : Option (Writes 32) := do
  let t1 ← mo (offsets + 0)
  let t2 ← mo (offsets + 1)
  let t3 ← mo (offsets + 2)
  let t4 ← mo (offsets + 3)
  let t5 ← mo (offsets + 4)
  let t6 ← mo (offsets + 5)
  let t7 ← mo (offsets + 6)
  let t8 ← mo (offsets + 7)
  let t9 ← mo (offsets + 8)
  let t10 ← mo (offsets + 9)
  let t11 ← mo (offsets + 10)
  let t12 ← mo (offsets + 11)
  let t13 ← mo (offsets + 12)
  let t14 ← mo (offsets + 13)
  let t15 ← mo (offsets + 14)
  let t16 ← mo (offsets + 15)
  let t17 ← mo (offsets + 16)
  let t18 ← mo (offsets + 17)
  let t19 ← mo (offsets + 18)
  let t20 ← mo (offsets + 19)
  let t21 ← mo (offsets + 20)
  let t22 ← mo (offsets + 21)
  let t23 ← mo (offsets + 22)
  let t24 ← mo (offsets + 23)
  let t25 ← mo (offsets + 24)
  let t26 ← mo (offsets + 25)
  let t27 ← mo (offsets + 26)
  let t28 ← mo (offsets + 27)
  let t29 ← mo (offsets + 28)
  let t30 ← mo (offsets + 29)
  let t31 ← mo (offsets + 30)
  let t32 ← mo (offsets + 31)
  some ([(ptr + t1.toInt, _mm256_extract_epi32 self.val0 0)] ++ [(ptr + t2.toInt, _mm256_extract_epi32 self.val0 1)] ++ [(ptr +
      t3.toInt, _mm256_extract_epi32 self.val0 2)] ++ [(ptr + t4.toInt, _mm256_extract_epi32 self.val0 3)] ++ [(ptr + t5.toInt,
      _mm256_extract_epi32 self.val0 4)] ++ [(ptr + t6.toInt, _mm256_extract_epi32 self.val0 5)] ++ [(ptr + t7.toInt,
      _mm256_extract_epi32 self.val0 6)] ++ [(ptr + t8.toInt, _mm256_extract_epi32 self.val0 7)] ++ [(ptr + t9.toInt,
      _mm256_extract_epi32 self.val1 0)] ++ [(ptr + t10.toInt, _mm256_extract_epi32 self.val1 1)] ++ [(ptr + t11.toInt,
      _mm256_extract_epi32 self.val1 2)] ++ [(ptr + t12.toInt, _mm256_extract_epi32 self.val1 3)] ++ [(ptr + t13.toInt,
      _mm256_extract_epi32 self.val1 4)] ++ [(ptr + t14.toInt, _mm256_extract_epi32 self.val1 5)] ++ [(ptr + t15.toInt,
      _mm256_extract_epi32 self.val1 6)] ++ [(ptr + t16.toInt, _mm256_extract_epi32 self.val1 7)] ++ [(ptr + t17.toInt,
      _mm256_extract_epi32 self.val2 0)] ++ [(ptr + t18.toInt, _mm256_extract_epi32 self.val2 1)] ++ [(ptr + t19.toInt,
      _mm256_extract_epi32 self.val2 2)] ++ [(ptr + t20.toInt, _mm256_extract_epi32 self.val2 3)] ++ [(ptr + t21.toInt,
      _mm256_extract_epi32 self.val2 4)] ++ [(ptr + t22.toInt, _mm256_extract_epi32 self.val2 5)] ++ [(ptr + t23.toInt,
      _mm256_extract_epi32 self.val2 6)] ++ [(ptr + t24.toInt, _mm256_extract_epi32 self.val2 7)] ++ [(ptr + t25.toInt,
      _mm256_extract_epi32 self.val3 0)] ++ [(ptr + t26.toInt, _mm256_extract_epi32 self.val3 1)] ++ [(ptr + t27.toInt,
      _mm256_extract_epi32 self.val3 2)] ++ [(ptr + t28.toInt, _mm256_extract_epi32 self.val3 3)] ++ [(ptr + t29.toInt,
      _mm256_extract_epi32 self.val3 4)] ++ [(ptr + t30.toInt, _mm256_extract_epi32 self.val3 5)] ++ [(ptr + t31.toInt,
      _mm256_extract_epi32 self.val3 6)] ++ [(ptr + t32.toInt, _mm256_extract_epi32 self.val3 7)])

/-- `operator<<`, free function (detail/short_vec_avx_int_32.hpp:311-315) -/
def opStore (E : FEnv) (data : Int) (vec : V) : Option (Writes 32) := do
  let w1 ← store E vec data
  some w1

/-- `operator/=` of `sqrt_reference` (detail/short_vec_avx_int_32.hpp:349-364) -/
def opDivAssignSqrt (E : FEnv) (self : V) (other : SqrtRef) : V :=
  let val0 : M256i := _mm256_cvtps_epi32 E (_mm256_mul_ps E (_mm256_cvtepi32_ps E self.val0) (_mm256_rsqrt_ps E
      (_mm256_cvtepi32_ps E other.vec.val0)))
  let val1 : M256i := _mm256_cvtps_epi32 E (_mm256_mul_ps E (_mm256_cvtepi32_ps E self.val1) (_mm256_rsqrt_ps E
      (_mm256_cvtepi32_ps E other.vec.val1)))
  let val2 : M256i := _mm256_cvtps_epi32 E (_mm256_mul_ps E (_mm256_cvtepi32_ps E self.val2) (_mm256_rsqrt_ps E
      (_mm256_cvtepi32_ps E other.vec.val2)))
  let val3 : M256i := _mm256_cvtps_epi32 E (_mm256_mul_ps E (_mm256_cvtepi32_ps E self.val3) (_mm256_rsqrt_ps E
      (_mm256_cvtepi32_ps E other.vec.val3)))
  ⟨val0, val1, val2, val3⟩

/-- `operator/` of `sqrt_reference` (detail/short_vec_avx_int_32.hpp:366-382) -/
def opDivSqrt (E : FEnv) (self : V) (other : SqrtRef) : V :=
  ofRegs E (_mm256_cvtps_epi32 E (_mm256_mul_ps E (_mm256_cvtepi32_ps E self.val0) (_mm256_rsqrt_ps E (_mm256_cvtepi32_ps E
      other.vec.val0)))) (_mm256_cvtps_epi32 E (_mm256_mul_ps E (_mm256_cvtepi32_ps E self.val1) (_mm256_rsqrt_ps E
      (_mm256_cvtepi32_ps E other.vec.val1)))) (_mm256_cvtps_epi32 E (_mm256_mul_ps E (_mm256_cvtepi32_ps E self.val2)
      (_mm256_rsqrt_ps E (_mm256_cvtepi32_ps E other.vec.val2)))) (_mm256_cvtps_epi32 E (_mm256_mul_ps E (_mm256_cvtepi32_ps E
      self.val3) (_mm256_rsqrt_ps E (_mm256_cvtepi32_ps E other.vec.val3))))

/-- `sqrt`, free function (detail/short_vec_avx_int_32.hpp:384-388) -/
def sqrtFn (E : FEnv) (vec : V) : SqrtRef := SqrtRef.mk vec

/-- `operator<<`, free function (detail/short_vec_avx_int_32.hpp:390-409) -/
def print (E : FEnv) (vec : V) : List (Out 32) :=
  [.s "[", .v vec.val0.x0.x0, .s ", ", .v vec.val0.x0.x1, .s ", ", .v vec.val0.x0.x2, .s ", ", .v vec.val0.x0.x3, .s ", ", .v
      vec.val0.x1.x0, .s ", ", .v vec.val0.x1.x1, .s ", ", .v vec.val0.x1.x2, .s ", ", .v vec.val0.x1.x3, .s ", ", .v
      vec.val1.x0.x0, .s ", ", .v vec.val1.x0.x1, .s ", ", .v vec.val1.x0.x2, .s ", ", .v vec.val1.x0.x3, .s ", ", .v
      vec.val1.x1.x0, .s ", ", .v vec.val1.x1.x1, .s ", ", .v vec.val1.x1.x2, .s ", ", .v vec.val1.x1.x3, .s ", ", .v
      vec.val2.x0.x0, .s ", ", .v vec.val2.x0.x1, .s ", ", .v vec.val2.x0.x2, .s ", ", .v vec.val2.x0.x3, .s ", ", .v
      vec.val2.x1.x0, .s ", ", .v vec.val2.x1.x1, .s ", ", .v vec.val2.x1.x2, .s ", ", .v vec.val2.x1.x3, .s ", ", .v
      vec.val3.x0.x0, .s ", ", .v vec.val3.x0.x1, .s ", ", .v vec.val3.x0.x2, .s ", ", .v vec.val3.x0.x3, .s ", ", .v
      vec.val3.x1.x0, .s ", ", .v vec.val3.x1.x1, .s ", ", .v vec.val3.x1.x2, .s ", ", .v vec.val3.x1.x3, .s "]"]

end LFA.SV.AvxInt32
