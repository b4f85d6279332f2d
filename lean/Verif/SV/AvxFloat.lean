/-
  Generated by tools/sv_gen.py from detail/short_vec_avx_float_*.hpp.
-/
import Verif.SV.Base
set_option linter.unusedVariables false
set_option autoImplicit false

namespace LFA.SV.AvxFloat8

/-- members of `short_vec<float, 8>` (detail/short_vec_avx_float_8.hpp:52) -/
structure V where
  val : M256

/-- lanes, from low to high -/
def V.lanes (v : V) : List (BitVec 32) := SV.lanes v.val

/-- `sqrt_reference<float, 8>`: keeps the vector until the square root is needed -/
structure SqrtRef where
  vec : V

/-- `mask_type` -/
abbrev Mask := V

/-- constructor (detail/short_vec_avx_float_8.hpp:64-67) -/
def bcast (E : FEnv) (data : BitVec 32) : V := ⟨_mm256_broadcast_ss data⟩

/-- constructor (detail/short_vec_avx_float_8.hpp:75-78) -/
def ofRegs (E : FEnv) (val : M256) : V := ⟨val⟩

/-- `load` (detail/short_vec_avx_float_8.hpp:220-224) -/
def load (E : FEnv) (m : Mem 32) (self : V) (data : Int) : Option V := do
  let t1 ← _mm256_loadu_ps m data
  let val : M256 := t1
  some ⟨val⟩

/-- `store` (detail/short_vec_avx_float_8.hpp:233-237) -/
def store (E : FEnv) (self : V) (data : Int) : Option (Writes 32) := do
  let w1 ← _mm256_storeu_ps data self.val
  some w1

/-- `sqrt` (detail/short_vec_avx_float_8.hpp:214-218) -/
def sqrt (E : FEnv) (self : V) : V := ofRegs E (_mm256_sqrt_ps E self.val)

/-- constructor of `sqrt_reference` (detail/short_vec_avx_float_8.hpp:330-333) -/
def ofSqrt (E : FEnv) (other : SqrtRef) : V := ⟨_mm256_sqrt_ps E other.vec.val⟩

/-- constructor (detail/short_vec_avx_float_8.hpp:69-73) -/
def ofPtr (E : FEnv) (m : Mem 32) (data : Int) : Option V := do
  let v1 ← load E m ⟨(uninit : M256)⟩ data
  some ⟨v1.val⟩

/-- constructor (detail/short_vec_avx_float_8.hpp:81-86) -/
def ofList (E : FEnv) (m : Mem 32) (il : Int) : Option V := do
  let v1 ← load E m ⟨(uninit : M256)⟩ il
  some ⟨v1.val⟩

/-- `any` (detail/short_vec_avx_float_8.hpp:92-98) -/
def any (E : FEnv) (self : V) : Bool :=
  (0 : BitVec 32) == (_mm256_testz_si256 (_mm256_castps_si256 self.val) (_mm256_castps_si256 self.val))

/-- `operator[]` (detail/short_vec_avx_float_8.hpp:100-123) -/
def opIndex (E : FEnv) (self : V) (i : BitVec 32) : BitVec 32 :=
  let buf : M128 := (uninit : M128)
  let buf : M128 := if BitVec.slt i (4 : BitVec 32) then _mm256_extractf128_ps self.val 0 else _mm256_extractf128_ps self.val 1
  let i : BitVec 32 := i &&& (3 : BitVec 32)
  if i == (3 : BitVec 32) then
    _mm_cvtss_f32 (_mm_shuffle_ps buf buf 3)
  else
    if i == (2 : BitVec 32) then
      _mm_cvtss_f32 (_mm_shuffle_ps buf buf 2)
    else
      if i == (1 : BitVec 32) then
        _mm_cvtss_f32 (_mm_shuffle_ps buf buf 1)
      else
        _mm_cvtss_f32 buf

/-- `operator-=` (detail/short_vec_avx_float_8.hpp:125-129) -/
def opSubAssign (E : FEnv) (self : V) (other : V) : V :=
  let val : M256 := _mm256_sub_ps E self.val other.val
  ⟨val⟩

/-- `operator-` (detail/short_vec_avx_float_8.hpp:131-135) -/
def opSub (E : FEnv) (self : V) (other : V) : V := ofRegs E (_mm256_sub_ps E self.val other.val)

/-- `operator+=` (detail/short_vec_avx_float_8.hpp:137-141) -/
def opAddAssign (E : FEnv) (self : V) (other : V) : V :=
  let val : M256 := _mm256_add_ps E self.val other.val
  ⟨val⟩

/-- `operator+` (detail/short_vec_avx_float_8.hpp:143-147) -/
def opAdd (E : FEnv) (self : V) (other : V) : V := ofRegs E (_mm256_add_ps E self.val other.val)

/-- `operator*=` (detail/short_vec_avx_float_8.hpp:149-153) -/
def opMulAssign (E : FEnv) (self : V) (other : V) : V :=
  let val : M256 := _mm256_mul_ps E self.val other.val
  ⟨val⟩

/-- `operator*` (detail/short_vec_avx_float_8.hpp:155-159) -/
def opMul (E : FEnv) (self : V) (other : V) : V := ofRegs E (_mm256_mul_ps E self.val other.val)

/-- `operator/=` (detail/short_vec_avx_float_8.hpp:161-165) -/
def opDivAssign (E : FEnv) (self : V) (other : V) : V :=
  let val : M256 := _mm256_mul_ps E self.val (_mm256_rcp_ps E other.val)
  ⟨val⟩

/-- `operator/` (detail/short_vec_avx_float_8.hpp:170-174) -/
def opDiv (E : FEnv) (self : V) (other : V) : V := ofRegs E (_mm256_mul_ps E self.val (_mm256_rcp_ps E other.val))

/-- `operator<` (detail/short_vec_avx_float_8.hpp:179-184) -/
def opLt (E : FEnv) (self : V) (other : V) : V := ofRegs E (_mm256_cmp_ps E self.val other.val _CMP_LT_OS)

/-- `operator<=` (detail/short_vec_avx_float_8.hpp:186-191) -/
def opLe (E : FEnv) (self : V) (other : V) : V := ofRegs E (_mm256_cmp_ps E self.val other.val _CMP_LE_OS)

/-- `operator==` (detail/short_vec_avx_float_8.hpp:193-198) -/
def opEq (E : FEnv) (self : V) (other : V) : V := ofRegs E (_mm256_cmp_ps E self.val other.val _CMP_EQ_OQ)

/-- `operator>` (detail/short_vec_avx_float_8.hpp:200-205) -/
def opGt (E : FEnv) (self : V) (other : V) : V := ofRegs E (_mm256_cmp_ps E self.val other.val _CMP_GT_OS)

/-- `operator>=` (detail/short_vec_avx_float_8.hpp:207-212) -/
def opGe (E : FEnv) (self : V) (other : V) : V := ofRegs E (_mm256_cmp_ps E self.val other.val _CMP_GE_OS)

/-- `load_aligned` (detail/short_vec_avx_float_8.hpp:226-231) -/
def load_aligned (E : FEnv) (m : Mem 32) (self : V) (data : Int) : Option V := do
  assertAligned 4 data 32
  let t1 ← _mm256_load_ps m data
  let val : M256 := t1
  some ⟨val⟩

/-- `store_aligned` (detail/short_vec_avx_float_8.hpp:239-244) -/
def store_aligned (E : FEnv) (self : V) (data : Int) : Option (Writes 32) := do
  assertAligned 4 data 32
  let w1 ← _mm256_store_ps data self.val
  some w1

/-- `store_nt` (detail/short_vec_avx_float_8.hpp:246-251) -/
def store_nt (E : FEnv) (self : V) (data : Int) : Option (Writes 32) := do
  assertAligned 4 data 32
  let w1 ← _mm256_stream_ps data self.val
  some w1

/-- `gather` (detail/short_vec_avx_float_8.hpp:254-260; avx512f, avx2) -/
def gather_avx512f (E : FEnv) (m : Mem 32) (mo : Mem 32) (self : V) (ptr : Int) (offsets : Int) : Option V := do
  let indices : M256i := (uninit : M256i)
  let t1 ← _mm256_loadu_si256 mo offsets
  let indices : M256i := t1
  let t2 ← _mm256_i32gather_ps m ptr indices 4
  let val : M256 := t2
  some ⟨val⟩

/-- `gather` (detail/short_vec_avx_float_8.hpp:262-276; avx) -/
def gather_avx (E : FEnv) (m : Mem 32) (mo : Mem 32) (self : V) (ptr : Int) (offsets : Int) : Option V := do
  let tmp : M128 := (uninit : M128)
  let t1 ← mo (offsets + 0)
  let t2 ← _mm_load_ss m (ptr + t1.toInt)
  let tmp : M128 := t2
  let t3 ← mo (offsets + 1)
  let t4 ← SHORTVEC_INSERT_PS_AVX m tmp ptr t3 (_MM_MK_INSERTPS_NDX 0 1 0)
  let tmp : M128 := t4
  let t5 ← mo (offsets + 2)
  let t6 ← SHORTVEC_INSERT_PS_AVX m tmp ptr t5 (_MM_MK_INSERTPS_NDX 0 2 0)
  let tmp : M128 := t6
  let t7 ← mo (offsets + 3)
  let t8 ← SHORTVEC_INSERT_PS_AVX m tmp ptr t7 (_MM_MK_INSERTPS_NDX 0 3 0)
  let tmp : M128 := t8
  let val : M256 := _mm256_insertf128_ps self.val tmp 0
  let t9 ← mo (offsets + 4)
  let t10 ← _mm_load_ss m (ptr + t9.toInt)
  let tmp : M128 := t10
  let t11 ← mo (offsets + 5)
  let t12 ← SHORTVEC_INSERT_PS_AVX m tmp ptr t11 (_MM_MK_INSERTPS_NDX 0 1 0)
  let tmp : M128 := t12
  let t13 ← mo (offsets + 6)
  let t14 ← SHORTVEC_INSERT_PS_AVX m tmp ptr t13 (_MM_MK_INSERTPS_NDX 0 2 0)
  let tmp : M128 := t14
  let t15 ← mo (offsets + 7)
  let t16 ← SHORTVEC_INSERT_PS_AVX m tmp ptr t15 (_MM_MK_INSERTPS_NDX 0 3 0)
  let tmp : M128 := t16
  let val : M256 := _mm256_insertf128_ps val tmp 1
  some ⟨val⟩

/-- `scatter` (detail/short_vec_avx_float_8.hpp:279-293) -/
def scatter (E : FEnv) (mo : Mem 32) (self : V) (ptr : Int) (offsets : Int) : Option (Writes 32) := do
  let tmp : M128 := (uninit : M128)
  let tmp : M128 := _mm256_extractf128_ps self.val 0
  let t1 ← mo (offsets + 0)
  let w2 : Writes 32 := [(ptr + t1.toInt, _MM_EXTRACT_FLOAT tmp 0)]
  let t3 ← mo (offsets + 1)
  let w4 : Writes 32 := [(ptr + t3.toInt, _MM_EXTRACT_FLOAT tmp 1)]
  let t5 ← mo (offsets + 2)
  let w6 : Writes 32 := [(ptr + t5.toInt, _MM_EXTRACT_FLOAT tmp 2)]
  let t7 ← mo (offsets + 3)
  let w8 : Writes 32 := [(ptr + t7.toInt, _MM_EXTRACT_FLOAT tmp 3)]
  let tmp : M128 := _mm256_extractf128_ps self.val 1
  let t9 ← mo (offsets + 4)
  let w10 : Writes 32 := [(ptr + t9.toInt, _MM_EXTRACT_FLOAT tmp 0)]
  let t11 ← mo (offsets + 5)
  let w12 : Writes 32 := [(ptr + t11.toInt, _MM_EXTRACT_FLOAT tmp 1)]
  let t13 ← mo (offsets + 6)
  let w14 : Writes 32 := [(ptr + t13.toInt, _MM_EXTRACT_FLOAT tmp 2)]
  let t15 ← mo (offsets + 7)
  let w16 : Writes 32 := [(ptr + t15.toInt, _MM_EXTRACT_FLOAT tmp 3)]
  some (w2 ++ w4 ++ w6 ++ w8 ++ w10 ++ w12 ++ w14 ++ w16)

/-- `blend` (detail/short_vec_avx_float_8.hpp:295-299) -/
def blend (E : FEnv) (self : V) (mask : Mask) (other : V) : V :=
  let val : M256 := _mm256_blendv_ps self.val other.val mask.val
  ⟨val⟩

/-- `operator<<`, free function (detail/short_vec_avx_float_8.hpp:305-309) -/
def opStore (E : FEnv) (data : Int) (vec : V) : Option (Writes 32) := do
  let w1 ← store E vec data
  some w1

/-- `operator/=` of `sqrt_reference` (detail/short_vec_avx_float_8.hpp:335-339) -/
def opDivAssignSqrt (E : FEnv) (self : V) (other : SqrtRef) : V :=
  let val : M256 := _mm256_mul_ps E self.val (_mm256_rsqrt_ps E other.vec.val)
  ⟨val⟩

/-- `operator/` of `sqrt_reference` (detail/short_vec_avx_float_8.hpp:341-345) -/
def opDivSqrt (E : FEnv) (self : V) (other : SqrtRef) : V :=
  ofRegs E (_mm256_mul_ps E self.val (_mm256_rsqrt_ps E other.vec.val))

/-- `sqrt`, free function (detail/short_vec_avx_float_8.hpp:347-351) -/
def sqrtFn (E : FEnv) (vec : V) : SqrtRef := SqrtRef.mk vec

/-- `operator<<`, free function (detail/short_vec_avx_float_8.hpp:353-369) -/
def print (E : FEnv) (vec : V) : List (Out 32) :=
  [.s "[", .v vec.val.x0.x0, .s ", ", .v vec.val.x0.x1, .s ", ", .v vec.val.x0.x2, .s ", ", .v vec.val.x0.x3, .s ", ", .v
      vec.val.x1.x0, .s ", ", .v vec.val.x1.x1, .s ", ", .v vec.val.x1.x2, .s ", ", .v vec.val.x1.x3, .s "]"]

end LFA.SV.AvxFloat8

namespace LFA.SV.AvxFloat16

/-- members of `short_vec<float, 16>` (detail/short_vec_avx_float_16.hpp:50) -/
structure V where
  val0 : M256
  val1 : M256

/-- lanes, from low to high -/
def V.lanes (v : V) : List (BitVec 32) := SV.lanes v.val0 ++ (SV.lanes v.val1)

/-- `sqrt_reference<float, 16>`: keeps the vector until the square root is needed -/
structure SqrtRef where
  vec : V

/-- `mask_type` -/
abbrev Mask := V

/-- constructor (detail/short_vec_avx_float_16.hpp:62-66) -/
def bcast (E : FEnv) (data : BitVec 32) : V := ⟨_mm256_broadcast_ss data, _mm256_broadcast_ss data⟩

/-- constructor (detail/short_vec_avx_float_16.hpp:74-78) -/
def ofRegs (E : FEnv) (val1 : M256) (val2 : M256) : V := ⟨val1, val2⟩

/-- `load` (detail/short_vec_avx_float_16.hpp:243-248) -/
def load (E : FEnv) (m : Mem 32) (self : V) (data : Int) : Option V := do
  let t1 ← _mm256_loadu_ps m (data + 0)
  let val0 : M256 := t1
  let t2 ← _mm256_loadu_ps m (data + 8)
  let val1 : M256 := t2
  some ⟨val0, val1⟩

/-- `store` (detail/short_vec_avx_float_16.hpp:258-263) -/
def store (E : FEnv) (self : V) (data : Int) : Option (Writes 32) := do
  let w1 ← _mm256_storeu_ps (data + 0) self.val0
  let w2 ← _mm256_storeu_ps (data + 8) self.val1
  some (w1 ++ w2)

/-- `sqrt` (detail/short_vec_avx_float_16.hpp:235-241) -/
def sqrt (E : FEnv) (self : V) : V := ofRegs E (_mm256_sqrt_ps E self.val0) (_mm256_sqrt_ps E self.val1)

/-- constructor of `sqrt_reference` (detail/short_vec_avx_float_16.hpp:381-385) -/
def ofSqrt (E : FEnv) (other : SqrtRef) : V := ⟨_mm256_sqrt_ps E other.vec.val0, _mm256_sqrt_ps E other.vec.val1⟩

/-- constructor (detail/short_vec_avx_float_16.hpp:68-72) -/
def ofPtr (E : FEnv) (m : Mem 32) (data : Int) : Option V := do
  let v1 ← load E m ⟨(uninit : M256), (uninit : M256)⟩ data
  some ⟨v1.val0, v1.val1⟩

/-- constructor (detail/short_vec_avx_float_16.hpp:81-86) -/
def ofList (E : FEnv) (m : Mem 32) (il : Int) : Option V := do
  let v1 ← load E m ⟨(uninit : M256), (uninit : M256)⟩ il
  some ⟨v1.val0, v1.val1⟩

/-- `any` (detail/short_vec_avx_float_16.hpp:92-99) -/
def any (E : FEnv) (self : V) : Bool :=
  let buf0 : M256 := _mm256_or_ps self.val0 self.val1
  (0 : BitVec 32) == (_mm256_testz_si256 (_mm256_castps_si256 buf0) (_mm256_castps_si256 buf0))

/-- `operator[]` (detail/short_vec_avx_float_16.hpp:101-127) -/
def opIndex (E : FEnv) (self : V) (i : BitVec 32) : Option (BitVec 32) := do
  let t1 ← dyn [self.val0, self.val1] (i.sshiftRight 3)
  let buf0 : M256 := t1
  let i : BitVec 32 := i &&& (7 : BitVec 32)
  let buf1 : M128 := (uninit : M128)
  let buf1 : M128 := if BitVec.slt i (4 : BitVec 32) then _mm256_extractf128_ps buf0 0 else _mm256_extractf128_ps buf0 1
  let i : BitVec 32 := i &&& (3 : BitVec 32)
  if i == (3 : BitVec 32) then do
    some (_mm_cvtss_f32 (_mm_shuffle_ps buf1 buf1 3))
  else do
    if i == (2 : BitVec 32) then do
      some (_mm_cvtss_f32 (_mm_shuffle_ps buf1 buf1 2))
    else do
      if i == (1 : BitVec 32) then do
        some (_mm_cvtss_f32 (_mm_shuffle_ps buf1 buf1 1))
      else do
        some (_mm_cvtss_f32 buf1)

/-- `operator-=` (detail/short_vec_avx_float_16.hpp:129-134) -/
def opSubAssign (E : FEnv) (self : V) (other : V) : V :=
  let val0 : M256 := _mm256_sub_ps E self.val0 other.val0
  let val1 : M256 := _mm256_sub_ps E self.val1 other.val1
  ⟨val0, val1⟩

/-- `operator-` (detail/short_vec_avx_float_16.hpp:136-142) -/
def opSub (E : FEnv) (self : V) (other : V) : V :=
  ofRegs E (_mm256_sub_ps E self.val0 other.val0) (_mm256_sub_ps E self.val1 other.val1)

/-- `operator+=` (detail/short_vec_avx_float_16.hpp:144-149) -/
def opAddAssign (E : FEnv) (self : V) (other : V) : V :=
  let val0 : M256 := _mm256_add_ps E self.val0 other.val0
  let val1 : M256 := _mm256_add_ps E self.val1 other.val1
  ⟨val0, val1⟩

/-- `operator+` (detail/short_vec_avx_float_16.hpp:151-157) -/
def opAdd (E : FEnv) (self : V) (other : V) : V :=
  ofRegs E (_mm256_add_ps E self.val0 other.val0) (_mm256_add_ps E self.val1 other.val1)

/-- `operator*=` (detail/short_vec_avx_float_16.hpp:159-164) -/
def opMulAssign (E : FEnv) (self : V) (other : V) : V :=
  let val0 : M256 := _mm256_mul_ps E self.val0 other.val0
  let val1 : M256 := _mm256_mul_ps E self.val1 other.val1
  ⟨val0, val1⟩

/-- `operator*` (detail/short_vec_avx_float_16.hpp:166-172) -/
def opMul (E : FEnv) (self : V) (other : V) : V :=
  ofRegs E (_mm256_mul_ps E self.val0 other.val0) (_mm256_mul_ps E self.val1 other.val1)

/-- `operator/=` (detail/short_vec_avx_float_16.hpp:174-179) -/
def opDivAssign (E : FEnv) (self : V) (other : V) : V :=
  let val0 : M256 := _mm256_mul_ps E self.val0 (_mm256_rcp_ps E other.val0)
  let val1 : M256 := _mm256_mul_ps E self.val1 (_mm256_rcp_ps E other.val1)
  ⟨val0, val1⟩

/-- `operator/` (detail/short_vec_avx_float_16.hpp:184-190) -/
def opDiv (E : FEnv) (self : V) (other : V) : V :=
  ofRegs E (_mm256_mul_ps E self.val0 (_mm256_rcp_ps E other.val0)) (_mm256_mul_ps E self.val1 (_mm256_rcp_ps E other.val1))

/-- `operator<` (detail/short_vec_avx_float_16.hpp:195-201) -/
def opLt (E : FEnv) (self : V) (other : V) : V :=
  ofRegs E (_mm256_cmp_ps E self.val0 other.val0 _CMP_LT_OS) (_mm256_cmp_ps E self.val1 other.val1 _CMP_LT_OS)

/-- `operator<=` (detail/short_vec_avx_float_16.hpp:203-209) -/
def opLe (E : FEnv) (self : V) (other : V) : V :=
  ofRegs E (_mm256_cmp_ps E self.val0 other.val0 _CMP_LE_OS) (_mm256_cmp_ps E self.val1 other.val1 _CMP_LE_OS)

/-- `operator==` (detail/short_vec_avx_float_16.hpp:211-217) -/
def opEq (E : FEnv) (self : V) (other : V) : V :=
  ofRegs E (_mm256_cmp_ps E self.val0 other.val0 _CMP_EQ_OQ) (_mm256_cmp_ps E self.val1 other.val1 _CMP_EQ_OQ)

/-- `operator>` (detail/short_vec_avx_float_16.hpp:219-225) -/
def opGt (E : FEnv) (self : V) (other : V) : V :=
  ofRegs E (_mm256_cmp_ps E self.val0 other.val0 _CMP_GT_OS) (_mm256_cmp_ps E self.val1 other.val1 _CMP_GT_OS)

/-- `operator>=` (detail/short_vec_avx_float_16.hpp:227-233) -/
def opGe (E : FEnv) (self : V) (other : V) : V :=
  ofRegs E (_mm256_cmp_ps E self.val0 other.val0 _CMP_GE_OS) (_mm256_cmp_ps E self.val1 other.val1 _CMP_GE_OS)

/-- `load_aligned` (detail/short_vec_avx_float_16.hpp:250-256) -/
def load_aligned (E : FEnv) (m : Mem 32) (self : V) (data : Int) : Option V := do
  assertAligned 4 data 32
  let t1 ← _mm256_load_ps m (data + 0)
  let val0 : M256 := t1
  let t2 ← _mm256_load_ps m (data + 8)
  let val1 : M256 := t2
  some ⟨val0, val1⟩

/-- `store_aligned` (detail/short_vec_avx_float_16.hpp:265-271) -/
def store_aligned (E : FEnv) (self : V) (data : Int) : Option (Writes 32) := do
  assertAligned 4 data 32
  let w1 ← _mm256_store_ps (data + 0) self.val0
  let w2 ← _mm256_store_ps (data + 8) self.val1
  some (w1 ++ w2)

/-- `store_nt` (detail/short_vec_avx_float_16.hpp:273-279) -/
def store_nt (E : FEnv) (self : V) (data : Int) : Option (Writes 32) := do
  assertAligned 4 data 32
  let w1 ← _mm256_stream_ps (data + 0) self.val0
  let w2 ← _mm256_stream_ps (data + 8) self.val1
  some (w1 ++ w2)

/-- `gather` (detail/short_vec_avx_float_16.hpp:292-316; avx) -/
def gather_avx (E : FEnv) (m : Mem 32) (mo : Mem 32) (self : V) (ptr : Int) (offsets : Int) : Option V := do
  let tmp : M128 := (uninit : M128)
  let t1 ← mo (offsets + 0)
  let t2 ← _mm_load_ss m (ptr + t1.toInt)
  let tmp : M128 := t2
  let t3 ← mo (offsets + 1)
  let t4 ← SHORTVEC_INSERT_PS_AVX m tmp ptr t3 (_MM_MK_INSERTPS_NDX 0 1 0)
  let tmp : M128 := t4
  let t5 ← mo (offsets + 2)
  let t6 ← SHORTVEC_INSERT_PS_AVX m tmp ptr t5 (_MM_MK_INSERTPS_NDX 0 2 0)
  let tmp : M128 := t6
  let t7 ← mo (offsets + 3)
  let t8 ← SHORTVEC_INSERT_PS_AVX m tmp ptr t7 (_MM_MK_INSERTPS_NDX 0 3 0)
  let tmp : M128 := t8
  let val0 : M256 := _mm256_insertf128_ps self.val0 tmp 0
  let t9 ← mo (offsets + 4)
  let t10 ← _mm_load_ss m (ptr + t9.toInt)
  let tmp : M128 := t10
  let t11 ← mo (offsets + 5)
  let t12 ← SHORTVEC_INSERT_PS_AVX m tmp ptr t11 (_MM_MK_INSERTPS_NDX 0 1 0)
  let tmp : M128 := t12
  let t13 ← mo (offsets + 6)
  let t14 ← SHORTVEC_INSERT_PS_AVX m tmp ptr t13 (_MM_MK_INSERTPS_NDX 0 2 0)
  let tmp : M128 := t14
  let t15 ← mo (offsets + 7)
  let t16 ← SHORTVEC_INSERT_PS_AVX m tmp ptr t15 (_MM_MK_INSERTPS_NDX 0 3 0)
  let tmp : M128 := t16
  let val0 : M256 := _mm256_insertf128_ps val0 tmp 1
  let t17 ← mo (offsets + 8)
  let t18 ← _mm_load_ss m (ptr + t17.toInt)
  let tmp : M128 := t18
  let t19 ← mo (offsets + 9)
  let t20 ← SHORTVEC_INSERT_PS_AVX m tmp ptr t19 (_MM_MK_INSERTPS_NDX 0 1 0)
  let tmp : M128 := t20
  let t21 ← mo (offsets + 10)
  let t22 ← SHORTVEC_INSERT_PS_AVX m tmp ptr t21 (_MM_MK_INSERTPS_NDX 0 2 0)
  let tmp : M128 := t22
  let t23 ← mo (offsets + 11)
  let t24 ← SHORTVEC_INSERT_PS_AVX m tmp ptr t23 (_MM_MK_INSERTPS_NDX 0 3 0)
  let tmp : M128 := t24
  let val1 : M256 := _mm256_insertf128_ps self.val1 tmp 0
  let t25 ← mo (offsets + 12)
  let t26 ← _mm_load_ss m (ptr + t25.toInt)
  let tmp : M128 := t26
  let t27 ← mo (offsets + 13)
  let t28 ← SHORTVEC_INSERT_PS_AVX m tmp ptr t27 (_MM_MK_INSERTPS_NDX 0 1 0)
  let tmp : M128 := t28
  let t29 ← mo (offsets + 14)
  let t30 ← SHORTVEC_INSERT_PS_AVX m tmp ptr t29 (_MM_MK_INSERTPS_NDX 0 2 0)
  let tmp : M128 := t30
  let t31 ← mo (offsets + 15)
  let t32 ← SHORTVEC_INSERT_PS_AVX m tmp ptr t31 (_MM_MK_INSERTPS_NDX 0 3 0)
  let tmp : M128 := t32
  let val1 : M256 := _mm256_insertf128_ps val1 tmp 1
  some ⟨val0, val1⟩

/-- `gather` (detail/short_vec_avx_float_16.hpp:282-290; avx2) -/
def gather_avx2 (E : FEnv) (m : Mem 32) (mo : Mem 32) (self : V) (ptr : Int) (offsets : Int) : Option V := do
  let indices : M256i := (uninit : M256i)
  let t1 ← _mm256_loadu_si256 mo offsets
  let indices : M256i := t1
  let t2 ← _mm256_i32gather_ps m ptr indices 4
  let val0 : M256 := t2
  let t3 ← _mm256_loadu_si256 mo (offsets + 8)
  let indices : M256i := t3
  let t4 ← _mm256_i32gather_ps m ptr indices 4
  let val1 : M256 := t4
  some ⟨val0, val1⟩

/-- `scatter` (detail/short_vec_avx_float_16.hpp:319-343) -/
def scatter (E : FEnv) (mo : Mem 32) (self : V) (ptr : Int) (offsets : Int) : Option (Writes 32) := do
  let tmp : M128 := (uninit : M128)
  let tmp : M128 := _mm256_extractf128_ps self.val0 0
  let t1 ← mo (offsets + 0)
  let w2 : Writes 32 := [(ptr + t1.toInt, _MM_EXTRACT_FLOAT tmp 0)]
  let t3 ← mo (offsets + 1)
  let w4 : Writes 32 := [(ptr + t3.toInt, _MM_EXTRACT_FLOAT tmp 1)]
  let t5 ← mo (offsets + 2)
  let w6 : Writes 32 := [(ptr + t5.toInt, _MM_EXTRACT_FLOAT tmp 2)]
  let t7 ← mo (offsets + 3)
  let w8 : Writes 32 := [(ptr + t7.toInt, _MM_EXTRACT_FLOAT tmp 3)]
  let tmp : M128 := _mm256_extractf128_ps self.val0 1
  let t9 ← mo (offsets + 4)
  let w10 : Writes 32 := [(ptr + t9.toInt, _MM_EXTRACT_FLOAT tmp 0)]
  let t11 ← mo (offsets + 5)
  let w12 : Writes 32 := [(ptr + t11.toInt, _MM_EXTRACT_FLOAT tmp 1)]
  let t13 ← mo (offsets + 6)
  let w14 : Writes 32 := [(ptr + t13.toInt, _MM_EXTRACT_FLOAT tmp 2)]
  let t15 ← mo (offsets + 7)
  let w16 : Writes 32 := [(ptr + t15.toInt, _MM_EXTRACT_FLOAT tmp 3)]
  let tmp : M128 := _mm256_extractf128_ps self.val1 0
  let t17 ← mo (offsets + 8)
  let w18 : Writes 32 := [(ptr + t17.toInt, _MM_EXTRACT_FLOAT tmp 0)]
  let t19 ← mo (offsets + 9)
  let w20 : Writes 32 := [(ptr + t19.toInt, _MM_EXTRACT_FLOAT tmp 1)]
  let t21 ← mo (offsets + 10)
  let w22 : Writes 32 := [(ptr + t21.toInt, _MM_EXTRACT_FLOAT tmp 2)]
  let t23 ← mo (offsets + 11)
  let w24 : Writes 32 := [(ptr + t23.toInt, _MM_EXTRACT_FLOAT tmp 3)]
  let tmp : M128 := _mm256_extractf128_ps self.val1 1
  let t25 ← mo (offsets + 12)
  let w26 : Writes 32 := [(ptr + t25.toInt, _MM_EXTRACT_FLOAT tmp 0)]
  let t27 ← mo (offsets + 13)
  let w28 : Writes 32 := [(ptr + t27.toInt, _MM_EXTRACT_FLOAT tmp 1)]
  let t29 ← mo (offsets + 14)
  let w30 : Writes 32 := [(ptr + t29.toInt, _MM_EXTRACT_FLOAT tmp 2)]
  let t31 ← mo (offsets + 15)
  let w32 : Writes 32 := [(ptr + t31.toInt, _MM_EXTRACT_FLOAT tmp 3)]
  some (w2 ++ w4 ++ w6 ++ w8 ++ w10 ++ w12 ++ w14 ++ w16 ++ w18 ++ w20 ++ w22 ++ w24 ++ w26 ++ w28 ++ w30 ++ w32)

/-- `blend` (detail/short_vec_avx_float_16.hpp:345-350) -/
def blend (E : FEnv) (self : V) (mask : Mask) (other : V) : V :=
  let val0 : M256 := _mm256_blendv_ps self.val0 other.val0 mask.val0
  let val1 : M256 := _mm256_blendv_ps self.val1 other.val1 mask.val1
  ⟨val0, val1⟩

/-- `operator<<`, free function (detail/short_vec_avx_float_16.hpp:356-360) -/
def opStore (E : FEnv) (data : Int) (vec : V) : Option (Writes 32) := do
  let w1 ← store E vec data
  some w1

/-- `operator/=` of `sqrt_reference` (detail/short_vec_avx_float_16.hpp:387-392) -/
def opDivAssignSqrt (E : FEnv) (self : V) (other : SqrtRef) : V :=
  let val0 : M256 := _mm256_mul_ps E self.val0 (_mm256_rsqrt_ps E other.vec.val0)
  let val1 : M256 := _mm256_mul_ps E self.val1 (_mm256_rsqrt_ps E other.vec.val1)
  ⟨val0, val1⟩

/-- `operator/` of `sqrt_reference` (detail/short_vec_avx_float_16.hpp:394-400) -/
def opDivSqrt (E : FEnv) (self : V) (other : SqrtRef) : V :=
  ofRegs E (_mm256_mul_ps E self.val0 (_mm256_rsqrt_ps E other.vec.val0)) (_mm256_mul_ps E self.val1 (_mm256_rsqrt_ps E
      other.vec.val1))

/-- `sqrt`, free function (detail/short_vec_avx_float_16.hpp:402-406) -/
def sqrtFn (E : FEnv) (vec : V) : SqrtRef := SqrtRef.mk vec

/-- `operator<<`, free function (detail/short_vec_avx_float_16.hpp:408-421) -/
def print (E : FEnv) (vec : V) : List (Out 32) :=
  [.s "[", .v vec.val0.x0.x0, .s ", ", .v vec.val0.x0.x1, .s ", ", .v vec.val0.x0.x2, .s ", ", .v vec.val0.x0.x3, .s ", ", .v
      vec.val0.x1.x0, .s ", ", .v vec.val0.x1.x1, .s ", ", .v vec.val0.x1.x2, .s ", ", .v vec.val0.x1.x3, .s ", ", .v
      vec.val1.x0.x0, .s ", ", .v vec.val1.x0.x1, .s ", ", .v vec.val1.x0.x2, .s ", ", .v vec.val1.x0.x3, .s ", ", .v
      vec.val1.x1.x0, .s ", ", .v vec.val1.x1.x1, .s ", ", .v vec.val1.x1.x2, .s ", ", .v vec.val1.x1.x3, .s "]"]

end LFA.SV.AvxFloat16

namespace LFA.SV.AvxFloat32

/-- members of `short_vec<float, 32>` (detail/short_vec_avx_float_32.hpp:50) -/
structure V where
  val0 : M256
  val1 : M256
  val2 : M256
  val3 : M256

/-- lanes, from low to high -/
def V.lanes (v : V) : List (BitVec 32) := SV.lanes v.val0 ++ (SV.lanes v.val1 ++ (SV.lanes v.val2 ++ (SV.lanes v.val3)))

/-- `sqrt_reference<float, 32>`: keeps the vector until the square root is needed -/
structure SqrtRef where
  vec : V

/-- `mask_type` -/
abbrev Mask := V

/-- constructor (detail/short_vec_avx_float_32.hpp:62-68) -/
def bcast (E : FEnv) (data : BitVec 32) : V :=
  ⟨_mm256_broadcast_ss data, _mm256_broadcast_ss data, _mm256_broadcast_ss data, _mm256_broadcast_ss data⟩

/-- constructor (detail/short_vec_avx_float_32.hpp:76-86) -/
def ofRegs (E : FEnv) (val1 : M256) (val2 : M256) (val3 : M256) (val4 : M256) : V := ⟨val1, val2, val3, val4⟩

/-- `load` (detail/short_vec_avx_float_32.hpp:281-288) -/
def load (E : FEnv) (m : Mem 32) (self : V) (data : Int) : Option V := do
  let t1 ← _mm256_loadu_ps m (data + 0)
  let val0 : M256 := t1
  let t2 ← _mm256_loadu_ps m (data + 8)
  let val1 : M256 := t2
  let t3 ← _mm256_loadu_ps m (data + 16)
  let val2 : M256 := t3
  let t4 ← _mm256_loadu_ps m (data + 24)
  let val3 : M256 := t4
  some ⟨val0, val1, val2, val3⟩

/-- `store` (detail/short_vec_avx_float_32.hpp:300-307) -/
def store (E : FEnv) (self : V) (data : Int) : Option (Writes 32) := do
  let w1 ← _mm256_storeu_ps (data + 0) self.val0
  let w2 ← _mm256_storeu_ps (data + 8) self.val1
  let w3 ← _mm256_storeu_ps (data + 16) self.val2
  let w4 ← _mm256_storeu_ps (data + 24) self.val3
  some (w1 ++ w2 ++ w3 ++ w4)

/-- `sqrt` (detail/short_vec_avx_float_32.hpp:271-279) -/
def sqrt (E : FEnv) (self : V) : V :=
  ofRegs E (_mm256_sqrt_ps E self.val0) (_mm256_sqrt_ps E self.val1) (_mm256_sqrt_ps E self.val2) (_mm256_sqrt_ps E self.val3)

/-- constructor of `sqrt_reference` (detail/short_vec_avx_float_32.hpp:475-481) -/
def ofSqrt (E : FEnv) (other : SqrtRef) : V :=
  ⟨_mm256_sqrt_ps E other.vec.val0, _mm256_sqrt_ps E other.vec.val1, _mm256_sqrt_ps E other.vec.val2, _mm256_sqrt_ps E
      other.vec.val3⟩

/-- constructor (detail/short_vec_avx_float_32.hpp:70-74) -/
def ofPtr (E : FEnv) (m : Mem 32) (data : Int) : Option V := do
  let v1 ← load E m ⟨(uninit : M256), (uninit : M256), (uninit : M256), (uninit : M256)⟩ data
  some ⟨v1.val0, v1.val1, v1.val2, v1.val3⟩

/-- constructor (detail/short_vec_avx_float_32.hpp:89-94) -/
def ofList (E : FEnv) (m : Mem 32) (il : Int) : Option V := do
  let v1 ← load E m ⟨(uninit : M256), (uninit : M256), (uninit : M256), (uninit : M256)⟩ il
  some ⟨v1.val0, v1.val1, v1.val2, v1.val3⟩

/-- `any` (detail/short_vec_avx_float_32.hpp:100-109) -/
def any (E : FEnv) (self : V) : Bool :=
  let buf0 : M256 := _mm256_or_ps (_mm256_or_ps self.val0 self.val1) (_mm256_or_ps self.val2 self.val3)
  (0 : BitVec 32) == (_mm256_testz_si256 (_mm256_castps_si256 buf0) (_mm256_castps_si256 buf0))

/-- `operator[]` (detail/short_vec_avx_float_32.hpp:111-137) -/
def opIndex (E : FEnv) (self : V) (i : BitVec 32) : Option (BitVec 32) := do
  let t1 ← dyn [self.val0, self.val1, self.val2, self.val3] (i.sshiftRight 3)
  let buf0 : M256 := t1
  let i : BitVec 32 := i &&& (7 : BitVec 32)
  let buf1 : M128 := (uninit : M128)
  let buf1 : M128 := if BitVec.slt i (4 : BitVec 32) then _mm256_extractf128_ps buf0 0 else _mm256_extractf128_ps buf0 1
  let i : BitVec 32 := i &&& (3 : BitVec 32)
  if i == (3 : BitVec 32) then do
    some (_mm_cvtss_f32 (_mm_shuffle_ps buf1 buf1 3))
  else do
    if i == (2 : BitVec 32) then do
      some (_mm_cvtss_f32 (_mm_shuffle_ps buf1 buf1 2))
    else do
      if i == (1 : BitVec 32) then do
        some (_mm_cvtss_f32 (_mm_shuffle_ps buf1 buf1 1))
      else do
        some (_mm_cvtss_f32 buf1)

/-- `operator-=` (detail/short_vec_avx_float_32.hpp:139-146) -/
def opSubAssign (E : FEnv) (self : V) (other : V) : V :=
  let val0 : M256 := _mm256_sub_ps E self.val0 other.val0
  let val1 : M256 := _mm256_sub_ps E self.val1 other.val1
  let val2 : M256 := _mm256_sub_ps E self.val2 other.val2
  let val3 : M256 := _mm256_sub_ps E self.val3 other.val3
  ⟨val0, val1, val2, val3⟩

/-- `operator-` (detail/short_vec_avx_float_32.hpp:148-156) -/
def opSub (E : FEnv) (self : V) (other : V) : V :=
  ofRegs E (_mm256_sub_ps E self.val0 other.val0) (_mm256_sub_ps E self.val1 other.val1) (_mm256_sub_ps E self.val2 other.val2)
      (_mm256_sub_ps E self.val3 other.val3)

/-- `operator+=` (detail/short_vec_avx_float_32.hpp:158-165) -/
def opAddAssign (E : FEnv) (self : V) (other : V) : V :=
  let val0 : M256 := _mm256_add_ps E self.val0 other.val0
  let val1 : M256 := _mm256_add_ps E self.val1 other.val1
  let val2 : M256 := _mm256_add_ps E self.val2 other.val2
  let val3 : M256 := _mm256_add_ps E self.val3 other.val3
  ⟨val0, val1, val2, val3⟩

/-- `operator+` (detail/short_vec_avx_float_32.hpp:167-175) -/
def opAdd (E : FEnv) (self : V) (other : V) : V :=
  ofRegs E (_mm256_add_ps E self.val0 other.val0) (_mm256_add_ps E self.val1 other.val1) (_mm256_add_ps E self.val2 other.val2)
      (_mm256_add_ps E self.val3 other.val3)

/-- `operator*=` (detail/short_vec_avx_float_32.hpp:177-184) -/
def opMulAssign (E : FEnv) (self : V) (other : V) : V :=
  let val0 : M256 := _mm256_mul_ps E self.val0 other.val0
  let val1 : M256 := _mm256_mul_ps E self.val1 other.val1
  let val2 : M256 := _mm256_mul_ps E self.val2 other.val2
  let val3 : M256 := _mm256_mul_ps E self.val3 other.val3
  ⟨val0, val1, val2, val3⟩

/-- `operator*` (detail/short_vec_avx_float_32.hpp:186-194) -/
def opMul (E : FEnv) (self : V) (other : V) : V :=
  ofRegs E (_mm256_mul_ps E self.val0 other.val0) (_mm256_mul_ps E self.val1 other.val1) (_mm256_mul_ps E self.val2 other.val2)
      (_mm256_mul_ps E self.val3 other.val3)

/-- `operator/=` (detail/short_vec_avx_float_32.hpp:196-203) -/
def opDivAssign (E : FEnv) (self : V) (other : V) : V :=
  let val0 : M256 := _mm256_mul_ps E self.val0 (_mm256_rcp_ps E other.val0)
  let val1 : M256 := _mm256_mul_ps E self.val1 (_mm256_rcp_ps E other.val1)
  let val2 : M256 := _mm256_mul_ps E self.val2 (_mm256_rcp_ps E other.val2)
  let val3 : M256 := _mm256_mul_ps E self.val3 (_mm256_rcp_ps E other.val3)
  ⟨val0, val1, val2, val3⟩

/-- `operator/` (detail/short_vec_avx_float_32.hpp:208-216) -/
def opDiv (E : FEnv) (self : V) (other : V) : V :=
  ofRegs E (_mm256_mul_ps E self.val0 (_mm256_rcp_ps E other.val0)) (_mm256_mul_ps E self.val1 (_mm256_rcp_ps E other.val1))
      (_mm256_mul_ps E self.val2 (_mm256_rcp_ps E other.val2)) (_mm256_mul_ps E self.val3 (_mm256_rcp_ps E other.val3))

/-- `operator<` (detail/short_vec_avx_float_32.hpp:221-229) -/
def opLt (E : FEnv) (self : V) (other : V) : V :=
  ofRegs E (_mm256_cmp_ps E self.val0 other.val0 _CMP_LT_OS) (_mm256_cmp_ps E self.val1 other.val1 _CMP_LT_OS) (_mm256_cmp_ps E
      self.val2 other.val2 _CMP_LT_OS) (_mm256_cmp_ps E self.val3 other.val3 _CMP_LT_OS)

/-- `operator<=` (detail/short_vec_avx_float_32.hpp:231-239) -/
def opLe (E : FEnv) (self : V) (other : V) : V :=
  ofRegs E (_mm256_cmp_ps E self.val0 other.val0 _CMP_LE_OS) (_mm256_cmp_ps E self.val1 other.val1 _CMP_LE_OS) (_mm256_cmp_ps E
      self.val2 other.val2 _CMP_LE_OS) (_mm256_cmp_ps E self.val3 other.val3 _CMP_LE_OS)

/-- `operator==` (detail/short_vec_avx_float_32.hpp:241-249) -/
def opEq (E : FEnv) (self : V) (other : V) : V :=
  ofRegs E (_mm256_cmp_ps E self.val0 other.val0 _CMP_EQ_OQ) (_mm256_cmp_ps E self.val1 other.val1 _CMP_EQ_OQ) (_mm256_cmp_ps E
      self.val2 other.val2 _CMP_EQ_OQ) (_mm256_cmp_ps E self.val3 other.val3 _CMP_EQ_OQ)

/-- `operator>` (detail/short_vec_avx_float_32.hpp:251-259) -/
def opGt (E : FEnv) (self : V) (other : V) : V :=
  ofRegs E (_mm256_cmp_ps E self.val0 other.val0 _CMP_GT_OS) (_mm256_cmp_ps E self.val1 other.val1 _CMP_GT_OS) (_mm256_cmp_ps E
      self.val2 other.val2 _CMP_GT_OS) (_mm256_cmp_ps E self.val3 other.val3 _CMP_GT_OS)

/-- `operator>=` (detail/short_vec_avx_float_32.hpp:261-269) -/
def opGe (E : FEnv) (self : V) (other : V) : V :=
  ofRegs E (_mm256_cmp_ps E self.val0 other.val0 _CMP_GE_OS) (_mm256_cmp_ps E self.val1 other.val1 _CMP_GE_OS) (_mm256_cmp_ps E
      self.val2 other.val2 _CMP_GE_OS) (_mm256_cmp_ps E self.val3 other.val3 _CMP_GE_OS)

/-- `load_aligned` (detail/short_vec_avx_float_32.hpp:290-298) -/
def load_aligned (E : FEnv) (m : Mem 32) (self : V) (data : Int) : Option V := do
  assertAligned 4 data 32
  let t1 ← _mm256_load_ps m (data + 0)
  let val0 : M256 := t1
  let t2 ← _mm256_load_ps m (data + 8)
  let val1 : M256 := t2
  let t3 ← _mm256_load_ps m (data + 16)
  let val2 : M256 := t3
  let t4 ← _mm256_load_ps m (data + 24)
  let val3 : M256 := t4
  some ⟨val0, val1, val2, val3⟩

/-- `store_aligned` (detail/short_vec_avx_float_32.hpp:309-317) -/
def store_aligned (E : FEnv) (self : V) (data : Int) : Option (Writes 32) := do
  assertAligned 4 data 32
  let w1 ← _mm256_store_ps (data + 0) self.val0
  let w2 ← _mm256_store_ps (data + 8) self.val1
  let w3 ← _mm256_store_ps (data + 16) self.val2
  let w4 ← _mm256_store_ps (data + 24) self.val3
  some (w1 ++ w2 ++ w3 ++ w4)

/-- `store_nt` (detail/short_vec_avx_float_32.hpp:319-327) -/
def store_nt (E : FEnv) (self : V) (data : Int) : Option (Writes 32) := do
  assertAligned 4 data 32
  let w1 ← _mm256_stream_ps (data + 0) self.val0
  let w2 ← _mm256_stream_ps (data + 8) self.val1
  let w3 ← _mm256_stream_ps (data + 16) self.val2
  let w4 ← _mm256_stream_ps (data + 24) self.val3
  some (w1 ++ w2 ++ w3 ++ w4)

/-- `gather` (detail/short_vec_avx_float_32.hpp:344-388; avx) -/
def gather_avx (E : FEnv) (m : Mem 32) (mo : Mem 32) (self : V) (ptr : Int) (offsets : Int) : Option V := do
  let tmp : M128 := (uninit : M128)
  let t1 ← mo (offsets + 0)
  let t2 ← _mm_load_ss m (ptr + t1.toInt)
  let tmp : M128 := t2
  let t3 ← mo (offsets + 1)
  let t4 ← SHORTVEC_INSERT_PS_AVX m tmp ptr t3 (_MM_MK_INSERTPS_NDX 0 1 0)
  let tmp : M128 := t4
  let t5 ← mo (offsets + 2)
  let t6 ← SHORTVEC_INSERT_PS_AVX m tmp ptr t5 (_MM_MK_INSERTPS_NDX 0 2 0)
  let tmp : M128 := t6
  let t7 ← mo (offsets + 3)
  let t8 ← SHORTVEC_INSERT_PS_AVX m tmp ptr t7 (_MM_MK_INSERTPS_NDX 0 3 0)
  let tmp : M128 := t8
  let val0 : M256 := _mm256_insertf128_ps self.val0 tmp 0
  let t9 ← mo (offsets + 4)
  let t10 ← _mm_load_ss m (ptr + t9.toInt)
  let tmp : M128 := t10
  let t11 ← mo (offsets + 5)
  let t12 ← SHORTVEC_INSERT_PS_AVX m tmp ptr t11 (_MM_MK_INSERTPS_NDX 0 1 0)
  let tmp : M128 := t12
  let t13 ← mo (offsets + 6)
  let t14 ← SHORTVEC_INSERT_PS_AVX m tmp ptr t13 (_MM_MK_INSERTPS_NDX 0 2 0)
  let tmp : M128 := t14
  let t15 ← mo (offsets + 7)
  let t16 ← SHORTVEC_INSERT_PS_AVX m tmp ptr t15 (_MM_MK_INSERTPS_NDX 0 3 0)
  let tmp : M128 := t16
  let val0 : M256 := _mm256_insertf128_ps val0 tmp 1
  let t17 ← mo (offsets + 8)
  let t18 ← _mm_load_ss m (ptr + t17.toInt)
  let tmp : M128 := t18
  let t19 ← mo (offsets + 9)
  let t20 ← SHORTVEC_INSERT_PS_AVX m tmp ptr t19 (_MM_MK_INSERTPS_NDX 0 1 0)
  let tmp : M128 := t20
  let t21 ← mo (offsets + 10)
  let t22 ← SHORTVEC_INSERT_PS_AVX m tmp ptr t21 (_MM_MK_INSERTPS_NDX 0 2 0)
  let tmp : M128 := t22
  let t23 ← mo (offsets + 11)
  let t24 ← SHORTVEC_INSERT_PS_AVX m tmp ptr t23 (_MM_MK_INSERTPS_NDX 0 3 0)
  let tmp : M128 := t24
  let val1 : M256 := _mm256_insertf128_ps self.val1 tmp 0
  let t25 ← mo (offsets + 12)
  let t26 ← _mm_load_ss m (ptr + t25.toInt)
  let tmp : M128 := t26
  let t27 ← mo (offsets + 13)
  let t28 ← SHORTVEC_INSERT_PS_AVX m tmp ptr t27 (_MM_MK_INSERTPS_NDX 0 1 0)
  let tmp : M128 := t28
  let t29 ← mo (offsets + 14)
  let t30 ← SHORTVEC_INSERT_PS_AVX m tmp ptr t29 (_MM_MK_INSERTPS_NDX 0 2 0)
  let tmp : M128 := t30
  let t31 ← mo (offsets + 15)
  let t32 ← SHORTVEC_INSERT_PS_AVX m tmp ptr t31 (_MM_MK_INSERTPS_NDX 0 3 0)
  let tmp : M128 := t32
  let val1 : M256 := _mm256_insertf128_ps val1 tmp 1
  let t33 ← mo (offsets + 16)
  let t34 ← _mm_load_ss m (ptr + t33.toInt)
  let tmp : M128 := t34
  let t35 ← mo (offsets + 17)
  let t36 ← SHORTVEC_INSERT_PS_AVX m tmp ptr t35 (_MM_MK_INSERTPS_NDX 0 1 0)
  let tmp : M128 := t36
  let t37 ← mo (offsets + 18)
  let t38 ← SHORTVEC_INSERT_PS_AVX m tmp ptr t37 (_MM_MK_INSERTPS_NDX 0 2 0)
  let tmp : M128 := t38
  let t39 ← mo (offsets + 19)
  let t40 ← SHORTVEC_INSERT_PS_AVX m tmp ptr t39 (_MM_MK_INSERTPS_NDX 0 3 0)
  let tmp : M128 := t40
  let val2 : M256 := _mm256_insertf128_ps self.val2 tmp 0
  let t41 ← mo (offsets + 20)
  let t42 ← _mm_load_ss m (ptr + t41.toInt)
  let tmp : M128 := t42
  let t43 ← mo (offsets + 21)
  let t44 ← SHORTVEC_INSERT_PS_AVX m tmp ptr t43 (_MM_MK_INSERTPS_NDX 0 1 0)
  let tmp : M128 := t44
  let t45 ← mo (offsets + 22)
  let t46 ← SHORTVEC_INSERT_PS_AVX m tmp ptr t45 (_MM_MK_INSERTPS_NDX 0 2 0)
  let tmp : M128 := t46
  let t47 ← mo (offsets + 23)
  let t48 ← SHORTVEC_INSERT_PS_AVX m tmp ptr t47 (_MM_MK_INSERTPS_NDX 0 3 0)
  let tmp : M128 := t48
  let val2 : M256 := _mm256_insertf128_ps val2 tmp 1
  let t49 ← mo (offsets + 24)
  let t50 ← _mm_load_ss m (ptr + t49.toInt)
  let tmp : M128 := t50
  let t51 ← mo (offsets + 25)
  let t52 ← SHORTVEC_INSERT_PS_AVX m tmp ptr t51 (_MM_MK_INSERTPS_NDX 0 1 0)
  let tmp : M128 := t52
  let t53 ← mo (offsets + 26)
  let t54 ← SHORTVEC_INSERT_PS_AVX m tmp ptr t53 (_MM_MK_INSERTPS_NDX 0 2 0)
  let tmp : M128 := t54
  let t55 ← mo (offsets + 27)
  let t56 ← SHORTVEC_INSERT_PS_AVX m tmp ptr t55 (_MM_MK_INSERTPS_NDX 0 3 0)
  let tmp : M128 := t56
  let val3 : M256 := _mm256_insertf128_ps self.val3 tmp 0
  let t57 ← mo (offsets + 28)
  let t58 ← _mm_load_ss m (ptr + t57.toInt)
  let tmp : M128 := t58
  let t59 ← mo (offsets + 29)
  let t60 ← SHORTVEC_INSERT_PS_AVX m tmp ptr t59 (_MM_MK_INSERTPS_NDX 0 1 0)
  let tmp : M128 := t60
  let t61 ← mo (offsets + 30)
  let t62 ← SHORTVEC_INSERT_PS_AVX m tmp ptr t61 (_MM_MK_INSERTPS_NDX 0 2 0)
  let tmp : M128 := t62
  let t63 ← mo (offsets + 31)
  let t64 ← SHORTVEC_INSERT_PS_AVX m tmp ptr t63 (_MM_MK_INSERTPS_NDX 0 3 0)
  let tmp : M128 := t64
  let val3 : M256 := _mm256_insertf128_ps val3 tmp 1
  some ⟨val0, val1, val2, val3⟩

/-- `gather` (detail/short_vec_avx_float_32.hpp:330-342; avx2) -/
def gather_avx2 (E : FEnv) (m : Mem 32) (mo : Mem 32) (self : V) (ptr : Int) (offsets : Int) : Option V := do
  let indices : M256i := (uninit : M256i)
  let t1 ← _mm256_loadu_si256 mo offsets
  let indices : M256i := t1
  let t2 ← _mm256_i32gather_ps m ptr indices 4
  let val0 : M256 := t2
  let t3 ← _mm256_loadu_si256 mo (offsets + 8)
  let indices : M256i := t3
  let t4 ← _mm256_i32gather_ps m ptr indices 4
  let val1 : M256 := t4
  let t5 ← _mm256_loadu_si256 mo (offsets + 16)
  let indices : M256i := t5
  let t6 ← _mm256_i32gather_ps m ptr indices 4
  let val2 : M256 := t6
  let t7 ← _mm256_loadu_si256 mo (offsets + 24)
  let indices : M256i := t7
  let t8 ← _mm256_i32gather_ps m ptr indices 4
  let val3 : M256 := t8
  some ⟨val0, val1, val2, val3⟩

/-- `scatter` (detail/short_vec_avx_float_32.hpp:391-435) -/
def scatter (E : FEnv) (mo : Mem 32) (self : V) (ptr : Int) (offsets : Int) : Option (Writes 32) := do
  let tmp : M128 := (uninit : M128)
  let tmp : M128 := _mm256_extractf128_ps self.val0 0
  let t1 ← mo (offsets + 0)
  let w2 : Writes 32 := [(ptr + t1.toInt, _MM_EXTRACT_FLOAT tmp 0)]
  let t3 ← mo (offsets + 1)
  let w4 : Writes 32 := [(ptr + t3.toInt, _MM_EXTRACT_FLOAT tmp 1)]
  let t5 ← mo (offsets + 2)
  let w6 : Writes 32 := [(ptr + t5.toInt, _MM_EXTRACT_FLOAT tmp 2)]
  let t7 ← mo (offsets + 3)
  let w8 : Writes 32 := [(ptr + t7.toInt, _MM_EXTRACT_FLOAT tmp 3)]
  let tmp : M128 := _mm256_extractf128_ps self.val0 1
  let t9 ← mo (offsets + 4)
  let w10 : Writes 32 := [(ptr + t9.toInt, _MM_EXTRACT_FLOAT tmp 0)]
  let t11 ← mo (offsets + 5)
  let w12 : Writes 32 := [(ptr + t11.toInt, _MM_EXTRACT_FLOAT tmp 1)]
  let t13 ← mo (offsets + 6)
  let w14 : Writes 32 := [(ptr + t13.toInt, _MM_EXTRACT_FLOAT tmp 2)]
  let t15 ← mo (offsets + 7)
  let w16 : Writes 32 := [(ptr + t15.toInt, _MM_EXTRACT_FLOAT tmp 3)]
  let tmp : M128 := _mm256_extractf128_ps self.val1 0
  let t17 ← mo (offsets + 8)
  let w18 : Writes 32 := [(ptr + t17.toInt, _MM_EXTRACT_FLOAT tmp 0)]
  let t19 ← mo (offsets + 9)
  let w20 : Writes 32 := [(ptr + t19.toInt, _MM_EXTRACT_FLOAT tmp 1)]
  let t21 ← mo (offsets + 10)
  let w22 : Writes 32 := [(ptr + t21.toInt, _MM_EXTRACT_FLOAT tmp 2)]
  let t23 ← mo (offsets + 11)
  let w24 : Writes 32 := [(ptr + t23.toInt, _MM_EXTRACT_FLOAT tmp 3)]
  let tmp : M128 := _mm256_extractf128_ps self.val1 1
  let t25 ← mo (offsets + 12)
  let w26 : Writes 32 := [(ptr + t25.toInt, _MM_EXTRACT_FLOAT tmp 0)]
  let t27 ← mo (offsets + 13)
  let w28 : Writes 32 := [(ptr + t27.toInt, _MM_EXTRACT_FLOAT tmp 1)]
  let t29 ← mo (offsets + 14)
  let w30 : Writes 32 := [(ptr + t29.toInt, _MM_EXTRACT_FLOAT tmp 2)]
  let t31 ← mo (offsets + 15)
  let w32 : Writes 32 := [(ptr + t31.toInt, _MM_EXTRACT_FLOAT tmp 3)]
  let tmp : M128 := _mm256_extractf128_ps self.val2 0
  let t33 ← mo (offsets + 16)
  let w34 : Writes 32 := [(ptr + t33.toInt, _MM_EXTRACT_FLOAT tmp 0)]
  let t35 ← mo (offsets + 17)
  let w36 : Writes 32 := [(ptr + t35.toInt, _MM_EXTRACT_FLOAT tmp 1)]
  let t37 ← mo (offsets + 18)
  let w38 : Writes 32 := [(ptr + t37.toInt, _MM_EXTRACT_FLOAT tmp 2)]
  let t39 ← mo (offsets + 19)
  let w40 : Writes 32 := [(ptr + t39.toInt, _MM_EXTRACT_FLOAT tmp 3)]
  let tmp : M128 := _mm256_extractf128_ps self.val2 1
  let t41 ← mo (offsets + 20)
  let w42 : Writes 32 := [(ptr + t41.toInt, _MM_EXTRACT_FLOAT tmp 0)]
  let t43 ← mo (offsets + 21)
  let w44 : Writes 32 := [(ptr + t43.toInt, _MM_EXTRACT_FLOAT tmp 1)]
  let t45 ← mo (offsets + 22)
  let w46 : Writes 32 := [(ptr + t45.toInt, _MM_EXTRACT_FLOAT tmp 2)]
  let t47 ← mo (offsets + 23)
  let w48 : Writes 32 := [(ptr + t47.toInt, _MM_EXTRACT_FLOAT tmp 3)]
  let tmp : M128 := _mm256_extractf128_ps self.val3 0
  let t49 ← mo (offsets + 24)
  let w50 : Writes 32 := [(ptr + t49.toInt, _MM_EXTRACT_FLOAT tmp 0)]
  let t51 ← mo (offsets + 25)
  let w52 : Writes 32 := [(ptr + t51.toInt, _MM_EXTRACT_FLOAT tmp 1)]
  let t53 ← mo (offsets + 26)
  let w54 : Writes 32 := [(ptr + t53.toInt, _MM_EXTRACT_FLOAT tmp 2)]
  let t55 ← mo (offsets + 27)
  let w56 : Writes 32 := [(ptr + t55.toInt, _MM_EXTRACT_FLOAT tmp 3)]
  let tmp : M128 := _mm256_extractf128_ps self.val3 1
  let t57 ← mo (offsets + 28)
  let w58 : Writes 32 := [(ptr + t57.toInt, _MM_EXTRACT_FLOAT tmp 0)]
  let t59 ← mo (offsets + 29)
  let w60 : Writes 32 := [(ptr + t59.toInt, _MM_EXTRACT_FLOAT tmp 1)]
  let t61 ← mo (offsets + 30)
  let w62 : Writes 32 := [(ptr + t61.toInt, _MM_EXTRACT_FLOAT tmp 2)]
  let t63 ← mo (offsets + 31)
  let w64 : Writes 32 := [(ptr + t63.toInt, _MM_EXTRACT_FLOAT tmp 3)]
  some (w2 ++ w4 ++ w6 ++ w8 ++ w10 ++ w12 ++ w14 ++ w16 ++ w18 ++ w20 ++ w22 ++ w24 ++ w26 ++ w28 ++ w30 ++ w32 ++ w34 ++ w36
      ++ w38 ++ w40 ++ w42 ++ w44 ++ w46 ++ w48 ++ w50 ++ w52 ++ w54 ++ w56 ++ w58 ++ w60 ++ w62 ++ w64)

/-- `blend` (detail/short_vec_avx_float_32.hpp:437-444) -/
def blend (E : FEnv) (self : V) (mask : Mask) (other : V) : V :=
  let val0 : M256 := _mm256_blendv_ps self.val0 other.val0 mask.val0
  let val1 : M256 := _mm256_blendv_ps self.val1 other.val1 mask.val1
  let val2 : M256 := _mm256_blendv_ps self.val2 other.val2 mask.val2
  let val3 : M256 := _mm256_blendv_ps self.val3 other.val3 mask.val3
  ⟨val0, val1, val2, val3⟩

/-- `operator<<`, free function (detail/short_vec_avx_float_32.hpp:450-454) -/
def opStore (E : FEnv) (data : Int) (vec : V) : Option (Writes 32) := do
  let w1 ← store E vec data
  some w1

/-- `operator/=` of `sqrt_reference` (detail/short_vec_avx_float_32.hpp:483-490) -/
def opDivAssignSqrt (E : FEnv) (self : V) (other : SqrtRef) : V :=
  let val0 : M256 := _mm256_mul_ps E self.val0 (_mm256_rsqrt_ps E other.vec.val0)
  let val1 : M256 := _mm256_mul_ps E self.val1 (_mm256_rsqrt_ps E other.vec.val1)
  let val2 : M256 := _mm256_mul_ps E self.val2 (_mm256_rsqrt_ps E other.vec.val2)
  let val3 : M256 := _mm256_mul_ps E self.val3 (_mm256_rsqrt_ps E other.vec.val3)
  ⟨val0, val1, val2, val3⟩

/-- `operator/` of `sqrt_reference` (detail/short_vec_avx_float_32.hpp:492-500) -/
def opDivSqrt (E : FEnv) (self : V) (other : SqrtRef) : V :=
  ofRegs E (_mm256_mul_ps E self.val0 (_mm256_rsqrt_ps E other.vec.val0)) (_mm256_mul_ps E self.val1 (_mm256_rsqrt_ps E
      other.vec.val1)) (_mm256_mul_ps E self.val2 (_mm256_rsqrt_ps E other.vec.val2)) (_mm256_mul_ps E self.val3
      (_mm256_rsqrt_ps E other.vec.val3))

/-- `sqrt`, free function (detail/short_vec_avx_float_32.hpp:502-506) -/
def sqrtFn (E : FEnv) (vec : V) : SqrtRef := SqrtRef.mk vec

/-- `operator<<`, free function (detail/short_vec_avx_float_32.hpp:508-528) -/
def print (E : FEnv) (vec : V) : List (Out 32) :=
  [.s "[", .v vec.val0.x0.x0, .s ", ", .v vec.val0.x0.x1, .s ", ", .v vec.val0.x0.x2, .s ", ", .v vec.val0.x0.x3, .s ", ", .v
      vec.val0.x1.x0, .s ", ", .v vec.val0.x1.x1, .s ", ", .v vec.val0.x1.x2, .s ", ", .v vec.val0.x1.x3, .s ", ", .v
      vec.val1.x0.x0, .s ", ", .v vec.val1.x0.x1, .s ", ", .v vec.val1.x0.x2, .s ", ", .v vec.val1.x0.x3, .s ", ", .v
      vec.val1.x1.x0, .s ", ", .v vec.val1.x1.x1, .s ", ", .v vec.val1.x1.x2, .s ", ", .v vec.val1.x1.x3, .s ", ", .v
      vec.val2.x0.x0, .s ", ", .v vec.val2.x0.x1, .s ", ", .v vec.val2.x0.x2, .s ", ", .v vec.val2.x0.x3, .s ", ", .v
      vec.val2.x1.x0, .s ", ", .v vec.val2.x1.x1, .s ", ", .v vec.val2.x1.x2, .s ", ", .v vec.val2.x1.x3, .s ", ", .v
      vec.val3.x0.x0, .s ", ", .v vec.val3.x0.x1, .s ", ", .v vec.val3.x0.x2, .s ", ", .v vec.val3.x0.x3, .s ", ", .v
      vec.val3.x1.x0, .s ", ", .v vec.val3.x1.x1, .s ", ", .v vec.val3.x1.x2, .s ", ", .v vec.val3.x1.x3, .s "]"]

end LFA.SV.AvxFloat32
