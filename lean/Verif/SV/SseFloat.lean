/-
  Generated by tools/sv_gen.py from detail/short_vec_sse_float_*.hpp.
-/
import Verif.SV.Base
set_option linter.unusedVariables false
set_option autoImplicit false

namespace LFA.SV.SseFloat4

/-- members of `short_vec<float, 4>` (detail/short_vec_sse_float_4.hpp:59) -/
structure V where
  val : M128

/-- lanes, from low to high -/
def V.lanes (v : V) : List (BitVec 32) := SV.lanes v.val

/-- `sqrt_reference<float, 4>`: keeps the vector until the square root is needed -/
structure SqrtRef where
  vec : V

/-- `mask_type` -/
abbrev Mask := V

/-- constructor (detail/short_vec_sse_float_4.hpp:71-74) -/
def bcast (E : FEnv) (data : BitVec 32) : V := ⟨_mm_set1_ps data⟩

/-- constructor (detail/short_vec_sse_float_4.hpp:82-85) -/
def ofRegs (E : FEnv) (val : M128) : V := ⟨val⟩

/-- `load` (detail/short_vec_sse_float_4.hpp:230-234) -/
def load (E : FEnv) (m : Mem 32) (self : V) (data : Int) : Option V := do
  let t1 ← _mm_loadu_ps m data
  let val : M128 := t1
  some ⟨val⟩

/-- `store` (detail/short_vec_sse_float_4.hpp:243-247) -/
def store (E : FEnv) (self : V) (data : Int) : Option (Writes 32) := do
  let w1 ← _mm_storeu_ps (data + 0) self.val
  some w1

/-- `sqrt` (detail/short_vec_sse_float_4.hpp:223-228) -/
def sqrt (E : FEnv) (self : V) : V := ofRegs E (_mm_sqrt_ps E self.val)

/-- constructor of `sqrt_reference` (detail/short_vec_sse_float_4.hpp:355-358) -/
def ofSqrt (E : FEnv) (other : SqrtRef) : V := ⟨_mm_sqrt_ps E other.vec.val⟩

/-- constructor (detail/short_vec_sse_float_4.hpp:76-80) -/
def ofPtr (E : FEnv) (m : Mem 32) (data : Int) : Option V := do
  let v1 ← load E m ⟨(uninit : M128)⟩ data
  some ⟨v1.val⟩

/-- constructor (detail/short_vec_sse_float_4.hpp:88-93) -/
def ofList (E : FEnv) (m : Mem 32) (il : Int) : Option V := do
  let v1 ← load E m ⟨(uninit : M128)⟩ il
  some ⟨v1.val⟩

/-- `any` (detail/short_vec_sse_float_4.hpp:99-112; avx512f, avx, avx2, sse41) -/
def any_avx512f (E : FEnv) (self : V) : Bool :=
  (0 : BitVec 32) == (_mm_testz_si128 (_mm_castps_si128 self.val) (_mm_castps_si128 self.val))

/-- `any` (detail/short_vec_sse_float_4.hpp:99-112; sse, sse2) -/
def any_sse (E : FEnv) (self : V) : Bool :=
  let buf1 : M128 := _mm_shuffle_ps self.val self.val 14
  let buf1 : M128 := _mm_or_ps self.val buf1
  let buf2 : M128 := _mm_shuffle_ps buf1 buf1 1
  (truthy (_mm_cvtss_f32 buf1)) || (truthy (_mm_cvtss_f32 buf2))

/-- `operator[]` (detail/short_vec_sse_float_4.hpp:114-128) -/
def opIndex (E : FEnv) (self : V) (i : BitVec 32) : BitVec 32 :=
  if i == (3 : BitVec 32) then
    _mm_cvtss_f32 (_mm_shuffle_ps self.val self.val 3)
  else
    if i == (2 : BitVec 32) then
      _mm_cvtss_f32 (_mm_shuffle_ps self.val self.val 2)
    else
      if i == (1 : BitVec 32) then
        _mm_cvtss_f32 (_mm_shuffle_ps self.val self.val 1)
      else
        _mm_cvtss_f32 self.val

/-- `operator-=` (detail/short_vec_sse_float_4.hpp:130-134) -/
def opSubAssign (E : FEnv) (self : V) (other : V) : V :=
  let val : M128 := _mm_sub_ps E self.val other.val
  ⟨val⟩

/-- `operator-` (detail/short_vec_sse_float_4.hpp:136-141) -/
def opSub (E : FEnv) (self : V) (other : V) : V := ofRegs E (_mm_sub_ps E self.val other.val)

/-- `operator+=` (detail/short_vec_sse_float_4.hpp:143-147) -/
def opAddAssign (E : FEnv) (self : V) (other : V) : V :=
  let val : M128 := _mm_add_ps E self.val other.val
  ⟨val⟩

/-- `operator+` (detail/short_vec_sse_float_4.hpp:149-154) -/
def opAdd (E : FEnv) (self : V) (other : V) : V := ofRegs E (_mm_add_ps E self.val other.val)

/-- `operator*=` (detail/short_vec_sse_float_4.hpp:156-160) -/
def opMulAssign (E : FEnv) (self : V) (other : V) : V :=
  let val : M128 := _mm_mul_ps E self.val other.val
  ⟨val⟩

/-- `operator*` (detail/short_vec_sse_float_4.hpp:162-167) -/
def opMul (E : FEnv) (self : V) (other : V) : V := ofRegs E (_mm_mul_ps E self.val other.val)

/-- `operator/=` (detail/short_vec_sse_float_4.hpp:169-173) -/
def opDivAssign (E : FEnv) (self : V) (other : V) : V :=
  let val : M128 := _mm_div_ps E self.val other.val
  ⟨val⟩

/-- `operator/` (detail/short_vec_sse_float_4.hpp:178-183) -/
def opDiv (E : FEnv) (self : V) (other : V) : V := ofRegs E (_mm_div_ps E self.val other.val)

/-- `operator<` (detail/short_vec_sse_float_4.hpp:188-193) -/
def opLt (E : FEnv) (self : V) (other : V) : V := ofRegs E (_mm_cmplt_ps E self.val other.val)

/-- `operator<=` (detail/short_vec_sse_float_4.hpp:195-200) -/
def opLe (E : FEnv) (self : V) (other : V) : V := ofRegs E (_mm_cmple_ps E self.val other.val)

/-- `operator==` (detail/short_vec_sse_float_4.hpp:202-207) -/
def opEq (E : FEnv) (self : V) (other : V) : V := ofRegs E (_mm_cmpeq_ps E self.val other.val)

/-- `operator>` (detail/short_vec_sse_float_4.hpp:209-214) -/
def opGt (E : FEnv) (self : V) (other : V) : V := ofRegs E (_mm_cmpgt_ps E self.val other.val)

/-- `operator>=` (detail/short_vec_sse_float_4.hpp:216-221) -/
def opGe (E : FEnv) (self : V) (other : V) : V := ofRegs E (_mm_cmpge_ps E self.val other.val)

/-- `load_aligned` (detail/short_vec_sse_float_4.hpp:236-241) -/
def load_aligned (E : FEnv) (m : Mem 32) (self : V) (data : Int) : Option V := do
  assertAligned 4 data 16
  let t1 ← _mm_load_ps m data
  let val : M128 := t1
  some ⟨val⟩

/-- `store_aligned` (detail/short_vec_sse_float_4.hpp:249-254) -/
def store_aligned (E : FEnv) (self : V) (data : Int) : Option (Writes 32) := do
  assertAligned 4 data 16
  let w1 ← _mm_store_ps (data + 0) self.val
  some w1

/-- `store_nt` (detail/short_vec_sse_float_4.hpp:256-261) -/
def store_nt (E : FEnv) (self : V) (data : Int) : Option (Writes 32) := do
  assertAligned 4 data 16
  let w1 ← _mm_stream_ps (data + 0) self.val
  some w1

/-- `gather` (detail/short_vec_sse_float_4.hpp:264-271; avx512f, avx, avx2, sse41) -/
def gather_avx512f (E : FEnv) (m : Mem 32) (mo : Mem 32) (self : V) (ptr : Int) (offsets : Int) : Option V := do
  let t1 ← mo (offsets + 0)
  let t2 ← _mm_load_ss m (ptr + t1.toInt)
  let val : M128 := t2
  let t3 ← mo (offsets + 1)
  let t4 ← SHORTVEC_INSERT_PS m val ptr t3 (_MM_MK_INSERTPS_NDX 0 1 0)
  let val : M128 := t4
  let t5 ← mo (offsets + 2)
  let t6 ← SHORTVEC_INSERT_PS m val ptr t5 (_MM_MK_INSERTPS_NDX 0 2 0)
  let val : M128 := t6
  let t7 ← mo (offsets + 3)
  let t8 ← SHORTVEC_INSERT_PS m val ptr t7 (_MM_MK_INSERTPS_NDX 0 3 0)
  let val : M128 := t8
  some ⟨val⟩

/-- `gather` (detail/short_vec_sse_float_4.hpp:287-298; sse, sse2) -/
def gather_sse (E : FEnv) (m : Mem 32) (mo : Mem 32) (self : V) (ptr : Int) (offsets : Int) : Option V := do
  let f1 : M128 := (uninit : M128)
  let f2 : M128 := (uninit : M128)
  let f3 : M128 := (uninit : M128)
  let f4 : M128 := (uninit : M128)
  let t1 ← mo (offsets + 0)
  let t2 ← _mm_load_ss m (ptr + t1.toInt)
  let f1 : M128 := t2
  let t3 ← mo (offsets + 2)
  let t4 ← _mm_load_ss m (ptr + t3.toInt)
  let f2 : M128 := t4
  let f1 : M128 := _mm_unpacklo_ps f1 f2
  let t5 ← mo (offsets + 1)
  let t6 ← _mm_load_ss m (ptr + t5.toInt)
  let f3 : M128 := t6
  let t7 ← mo (offsets + 3)
  let t8 ← _mm_load_ss m (ptr + t7.toInt)
  let f4 : M128 := t8
  let f3 : M128 := _mm_unpacklo_ps f3 f4
  let val : M128 := _mm_unpacklo_ps f1 f3
  some ⟨val⟩

/-- `scatter` (detail/short_vec_sse_float_4.hpp:273-285; avx512f, avx, avx2, sse41) -/
def scatter_avx512f (E : FEnv) (mo : Mem 32) (self : V) (ptr : Int) (offsets : Int) : Option (Writes 32) := do
  let r1 := (_mm_extract_ps self.val 0)
  let r2 := (_mm_extract_ps self.val 1)
  let r3 := (_mm_extract_ps self.val 2)
  let r4 := (_mm_extract_ps self.val 3)
  let t1 ← mo (offsets + 0)
  let w2 : Writes 32 := [(ptr + t1.toInt, r1)]
  let t3 ← mo (offsets + 1)
  let w4 : Writes 32 := [(ptr + t3.toInt, r2)]
  let t5 ← mo (offsets + 2)
  let w6 : Writes 32 := [(ptr + t5.toInt, r3)]
  let t7 ← mo (offsets + 3)
  let w8 : Writes 32 := [(ptr + t7.toInt, r4)]
  some (w2 ++ w4 ++ w6 ++ w8)

/-- `scatter` (detail/short_vec_sse_float_4.hpp:300-311; sse, sse2) -/
def scatter_sse (E : FEnv) (mo : Mem 32) (self : V) (ptr : Int) (offsets : Int) : Option (Writes 32) := do
  let tmp : M128 := self.val
  let t1 ← mo (offsets + 0)
  let w2 ← _mm_store_ss (ptr + t1.toInt) tmp
  let tmp : M128 := _mm_shuffle_ps tmp tmp (_MM_SHUFFLE 0 3 2 1)
  let t3 ← mo (offsets + 1)
  let w4 ← _mm_store_ss (ptr + t3.toInt) tmp
  let tmp : M128 := _mm_shuffle_ps tmp tmp (_MM_SHUFFLE 0 3 2 1)
  let t5 ← mo (offsets + 2)
  let w6 ← _mm_store_ss (ptr + t5.toInt) tmp
  let tmp : M128 := _mm_shuffle_ps tmp tmp (_MM_SHUFFLE 0 3 2 1)
  let t7 ← mo (offsets + 3)
  let w8 ← _mm_store_ss (ptr + t7.toInt) tmp
  some (w2 ++ w4 ++ w6 ++ w8)

/-- `blend` (detail/short_vec_sse_float_4.hpp:314-324; avx512f, avx, avx2, sse41) -/
def blend_avx512f (E : FEnv) (self : V) (mask : Mask) (other : V) : V :=
  let val : M128 := _mm_blendv_ps self.val other.val mask.val
  ⟨val⟩

/-- `blend` (detail/short_vec_sse_float_4.hpp:314-324; sse, sse2) -/
def blend_sse (E : FEnv) (self : V) (mask : Mask) (other : V) : V :=
  let val : M128 := _mm_or_ps (_mm_and_ps mask.val other.val) (_mm_andnot_ps mask.val self.val)
  ⟨val⟩

/-- `operator<<`, free function (detail/short_vec_sse_float_4.hpp:330-334) -/
def opStore (E : FEnv) (data : Int) (vec : V) : Option (Writes 32) := do
  let w1 ← store E vec data
  some w1

/-- `operator/=` of `sqrt_reference` (detail/short_vec_sse_float_4.hpp:360-364) -/
def opDivAssignSqrt (E : FEnv) (self : V) (other : SqrtRef) : V :=
  let val : M128 := _mm_mul_ps E self.val (_mm_rsqrt_ps E other.vec.val)
  ⟨val⟩

/-- `operator/` of `sqrt_reference` (detail/short_vec_sse_float_4.hpp:366-371) -/
def opDivSqrt (E : FEnv) (self : V) (other : SqrtRef) : V :=
  ofRegs E (_mm_mul_ps E self.val (_mm_rsqrt_ps E other.vec.val))

/-- `sqrt`, free function (detail/short_vec_sse_float_4.hpp:373-377) -/
def sqrtFn (E : FEnv) (vec : V) : SqrtRef := SqrtRef.mk vec

/-- `operator<<`, free function (detail/short_vec_sse_float_4.hpp:379-387) -/
def print (E : FEnv) (vec : V) : List (Out 32) :=
  [.s "[", .v vec.val.x0, .s ", ", .v vec.val.x1, .s ", ", .v vec.val.x2, .s ", ", .v vec.val.x3, .s "]"]

end LFA.SV.SseFloat4

namespace LFA.SV.SseFloat8

/-- members of `short_vec<float, 8>` (detail/short_vec_sse_float_8.hpp:56) -/
structure V where
  val0 : M128
  val1 : M128

/-- lanes, from low to high -/
def V.lanes (v : V) : List (BitVec 32) := SV.lanes v.val0 ++ (SV.lanes v.val1)

/-- `sqrt_reference<float, 8>`: keeps the vector until the square root is needed -/
structure SqrtRef where
  vec : V

/-- `mask_type` -/
abbrev Mask := V

/-- constructor (detail/short_vec_sse_float_8.hpp:68-72) -/
def bcast (E : FEnv) (data : BitVec 32) : V := ⟨_mm_set1_ps data, _mm_set1_ps data⟩

/-- constructor (detail/short_vec_sse_float_8.hpp:80-84) -/
def ofRegs (E : FEnv) (val1 : M128) (val2 : M128) : V := ⟨val1, val2⟩

/-- `load` (detail/short_vec_sse_float_8.hpp:248-253) -/
def load (E : FEnv) (m : Mem 32) (self : V) (data : Int) : Option V := do
  let t1 ← _mm_loadu_ps m (data + 0)
  let val0 : M128 := t1
  let t2 ← _mm_loadu_ps m (data + 4)
  let val1 : M128 := t2
  some ⟨val0, val1⟩

/-- `store` (detail/short_vec_sse_float_8.hpp:263-268) -/
def store (E : FEnv) (self : V) (data : Int) : Option (Writes 32) := do
  let w1 ← _mm_storeu_ps (data + 0) self.val0
  let w2 ← _mm_storeu_ps (data + 4) self.val1
  some (w1 ++ w2)

/-- `sqrt` (detail/short_vec_sse_float_8.hpp:240-246) -/
def sqrt (E : FEnv) (self : V) : V := ofRegs E (_mm_sqrt_ps E self.val0) (_mm_sqrt_ps E self.val1)

/-- constructor of `sqrt_reference` (detail/short_vec_sse_float_8.hpp:409-413) -/
def ofSqrt (E : FEnv) (other : SqrtRef) : V := ⟨_mm_sqrt_ps E other.vec.val0, _mm_sqrt_ps E other.vec.val1⟩

/-- constructor (detail/short_vec_sse_float_8.hpp:74-78) -/
def ofPtr (E : FEnv) (m : Mem 32) (data : Int) : Option V := do
  let v1 ← load E m ⟨(uninit : M128), (uninit : M128)⟩ data
  some ⟨v1.val0, v1.val1⟩

/-- constructor (detail/short_vec_sse_float_8.hpp:87-92) -/
def ofList (E : FEnv) (m : Mem 32) (il : Int) : Option V := do
  let v1 ← load E m ⟨(uninit : M128), (uninit : M128)⟩ il
  some ⟨v1.val0, v1.val1⟩

/-- `any` (detail/short_vec_sse_float_8.hpp:98-113; sse, sse2) -/
def any_sse (E : FEnv) (self : V) : Bool :=
  let buf1 : M128 := _mm_or_ps self.val0 self.val1
  let buf2 : M128 := _mm_shuffle_ps buf1 buf1 14
  let buf1 : M128 := _mm_or_ps buf1 buf2
  let buf2 : M128 := _mm_shuffle_ps buf1 buf1 1
  (truthy (_mm_cvtss_f32 buf1)) || (truthy (_mm_cvtss_f32 buf2))

/-- `any` (detail/short_vec_sse_float_8.hpp:98-113; sse41) -/
def any_sse41 (E : FEnv) (self : V) : Bool :=
  let buf1 : M128 := _mm_or_ps self.val0 self.val1
  (0 : BitVec 32) == (_mm_testz_si128 (_mm_castps_si128 buf1) (_mm_castps_si128 buf1))

/-- `operator[]` (detail/short_vec_sse_float_8.hpp:115-132) -/
def opIndex (E : FEnv) (self : V) (i : BitVec 32) : Option (BitVec 32) := do
  let t1 ← dyn [self.val0, self.val1] (i.sshiftRight 2)
  let buf : M128 := t1
  let i : BitVec 32 := i &&& (3 : BitVec 32)
  if i == (3 : BitVec 32) then do
    some (_mm_cvtss_f32 (_mm_shuffle_ps buf buf 3))
  else do
    if i == (2 : BitVec 32) then do
      some (_mm_cvtss_f32 (_mm_shuffle_ps buf buf 2))
    else do
      if i == (1 : BitVec 32) then do
        some (_mm_cvtss_f32 (_mm_shuffle_ps buf buf 1))
      else do
        some (_mm_cvtss_f32 buf)

/-- `operator-=` (detail/short_vec_sse_float_8.hpp:134-139) -/
def opSubAssign (E : FEnv) (self : V) (other : V) : V :=
  let val0 : M128 := _mm_sub_ps E self.val0 other.val0
  let val1 : M128 := _mm_sub_ps E self.val1 other.val1
  ⟨val0, val1⟩

/-- `operator-` (detail/short_vec_sse_float_8.hpp:141-147) -/
def opSub (E : FEnv) (self : V) (other : V) : V :=
  ofRegs E (_mm_sub_ps E self.val0 other.val0) (_mm_sub_ps E self.val1 other.val1)

/-- `operator+=` (detail/short_vec_sse_float_8.hpp:149-154) -/
def opAddAssign (E : FEnv) (self : V) (other : V) : V :=
  let val0 : M128 := _mm_add_ps E self.val0 other.val0
  let val1 : M128 := _mm_add_ps E self.val1 other.val1
  ⟨val0, val1⟩

/-- `operator+` (detail/short_vec_sse_float_8.hpp:156-162) -/
def opAdd (E : FEnv) (self : V) (other : V) : V :=
  ofRegs E (_mm_add_ps E self.val0 other.val0) (_mm_add_ps E self.val1 other.val1)

/-- `operator*=` (detail/short_vec_sse_float_8.hpp:164-169) -/
def opMulAssign (E : FEnv) (self : V) (other : V) : V :=
  let val0 : M128 := _mm_mul_ps E self.val0 other.val0
  let val1 : M128 := _mm_mul_ps E self.val1 other.val1
  ⟨val0, val1⟩

/-- `operator*` (detail/short_vec_sse_float_8.hpp:171-177) -/
def opMul (E : FEnv) (self : V) (other : V) : V :=
  ofRegs E (_mm_mul_ps E self.val0 other.val0) (_mm_mul_ps E self.val1 other.val1)

/-- `operator/=` (detail/short_vec_sse_float_8.hpp:179-184) -/
def opDivAssign (E : FEnv) (self : V) (other : V) : V :=
  let val0 : M128 := _mm_div_ps E self.val0 other.val0
  let val1 : M128 := _mm_div_ps E self.val1 other.val1
  ⟨val0, val1⟩

/-- `operator/` (detail/short_vec_sse_float_8.hpp:189-195) -/
def opDiv (E : FEnv) (self : V) (other : V) : V :=
  ofRegs E (_mm_div_ps E self.val0 other.val0) (_mm_div_ps E self.val1 other.val1)

/-- `operator<` (detail/short_vec_sse_float_8.hpp:200-206) -/
def opLt (E : FEnv) (self : V) (other : V) : V :=
  ofRegs E (_mm_cmplt_ps E self.val0 other.val0) (_mm_cmplt_ps E self.val1 other.val1)

/-- `operator<=` (detail/short_vec_sse_float_8.hpp:208-214) -/
def opLe (E : FEnv) (self : V) (other : V) : V :=
  ofRegs E (_mm_cmple_ps E self.val0 other.val0) (_mm_cmple_ps E self.val1 other.val1)

/-- `operator==` (detail/short_vec_sse_float_8.hpp:216-222) -/
def opEq (E : FEnv) (self : V) (other : V) : V :=
  ofRegs E (_mm_cmpeq_ps E self.val0 other.val0) (_mm_cmpeq_ps E self.val1 other.val1)

/-- `operator>` (detail/short_vec_sse_float_8.hpp:224-230) -/
def opGt (E : FEnv) (self : V) (other : V) : V :=
  ofRegs E (_mm_cmpgt_ps E self.val0 other.val0) (_mm_cmpgt_ps E self.val1 other.val1)

/-- `operator>=` (detail/short_vec_sse_float_8.hpp:232-238) -/
def opGe (E : FEnv) (self : V) (other : V) : V :=
  ofRegs E (_mm_cmpge_ps E self.val0 other.val0) (_mm_cmpge_ps E self.val1 other.val1)

/-- `load_aligned` (detail/short_vec_sse_float_8.hpp:255-261) -/
def load_aligned (E : FEnv) (m : Mem 32) (self : V) (data : Int) : Option V := do
  assertAligned 4 data 16
  let t1 ← _mm_load_ps m (data + 0)
  let val0 : M128 := t1
  let t2 ← _mm_load_ps m (data + 4)
  let val1 : M128 := t2
  some ⟨val0, val1⟩

/-- `store_aligned` (detail/short_vec_sse_float_8.hpp:270-276) -/
def store_aligned (E : FEnv) (self : V) (data : Int) : Option (Writes 32) := do
  assertAligned 4 data 16
  let w1 ← _mm_store_ps (data + 0) self.val0
  let w2 ← _mm_store_ps (data + 4) self.val1
  some (w1 ++ w2)

/-- `store_nt` (detail/short_vec_sse_float_8.hpp:278-284) -/
def store_nt (E : FEnv) (self : V) (data : Int) : Option (Writes 32) := do
  assertAligned 4 data 16
  let w1 ← _mm_stream_ps (data + 0) self.val0
  let w2 ← _mm_stream_ps (data + 4) self.val1
  some (w1 ++ w2)

/-- `gather` (detail/short_vec_sse_float_8.hpp:322-340; sse, sse2) -/
def gather_sse (E : FEnv) (m : Mem 32) (mo : Mem 32) (self : V) (ptr : Int) (offsets : Int) : Option V := do
  let f1 : M128 := (uninit : M128)
  let f2 : M128 := (uninit : M128)
  let f3 : M128 := (uninit : M128)
  let f4 : M128 := (uninit : M128)
  let t1 ← mo (offsets + 0)
  let t2 ← _mm_load_ss m (ptr + t1.toInt)
  let f1 : M128 := t2
  let t3 ← mo (offsets + 2)
  let t4 ← _mm_load_ss m (ptr + t3.toInt)
  let f2 : M128 := t4
  let f1 : M128 := _mm_unpacklo_ps f1 f2
  let t5 ← mo (offsets + 1)
  let t6 ← _mm_load_ss m (ptr + t5.toInt)
  let f3 : M128 := t6
  let t7 ← mo (offsets + 3)
  let t8 ← _mm_load_ss m (ptr + t7.toInt)
  let f4 : M128 := t8
  let f3 : M128 := _mm_unpacklo_ps f3 f4
  let val0 : M128 := _mm_unpacklo_ps f1 f3
  let t9 ← mo (offsets + 4)
  let t10 ← _mm_load_ss m (ptr + t9.toInt)
  let f1 : M128 := t10
  let t11 ← mo (offsets + 6)
  let t12 ← _mm_load_ss m (ptr + t11.toInt)
  let f2 : M128 := t12
  let f1 : M128 := _mm_unpacklo_ps f1 f2
  let t13 ← mo (offsets + 5)
  let t14 ← _mm_load_ss m (ptr + t13.toInt)
  let f3 : M128 := t14
  let t15 ← mo (offsets + 7)
  let t16 ← _mm_load_ss m (ptr + t15.toInt)
  let f4 : M128 := t16
  let f3 : M128 := _mm_unpacklo_ps f3 f4
  let val1 : M128 := _mm_unpacklo_ps f1 f3
  some ⟨val0, val1⟩

/-- `gather` (detail/short_vec_sse_float_8.hpp:287-298; sse41) -/
def gather_sse41 (E : FEnv) (m : Mem 32) (mo : Mem 32) (self : V) (ptr : Int) (offsets : Int) : Option V := do
  let t1 ← mo (offsets + 0)
  let t2 ← _mm_load_ss m (ptr + t1.toInt)
  let val0 : M128 := t2
  let t3 ← mo (offsets + 1)
  let t4 ← SHORTVEC_INSERT_PS m val0 ptr t3 (_MM_MK_INSERTPS_NDX 0 1 0)
  let val0 : M128 := t4
  let t5 ← mo (offsets + 2)
  let t6 ← SHORTVEC_INSERT_PS m val0 ptr t5 (_MM_MK_INSERTPS_NDX 0 2 0)
  let val0 : M128 := t6
  let t7 ← mo (offsets + 3)
  let t8 ← SHORTVEC_INSERT_PS m val0 ptr t7 (_MM_MK_INSERTPS_NDX 0 3 0)
  let val0 : M128 := t8
  let t9 ← mo (offsets + 4)
  let t10 ← _mm_load_ss m (ptr + t9.toInt)
  let val1 : M128 := t10
  let t11 ← mo (offsets + 5)
  let t12 ← SHORTVEC_INSERT_PS m val1 ptr t11 (_MM_MK_INSERTPS_NDX 0 1 0)
  let val1 : M128 := t12
  let t13 ← mo (offsets + 6)
  let t14 ← SHORTVEC_INSERT_PS m val1 ptr t13 (_MM_MK_INSERTPS_NDX 0 2 0)
  let val1 : M128 := t14
  let t15 ← mo (offsets + 7)
  let t16 ← SHORTVEC_INSERT_PS m val1 ptr t15 (_MM_MK_INSERTPS_NDX 0 3 0)
  let val1 : M128 := t16
  some ⟨val0, val1⟩

/-- `scatter` (detail/short_vec_sse_float_8.hpp:342-361; sse, sse2) -/
def scatter_sse (E : FEnv) (mo : Mem 32) (self : V) (ptr : Int) (offsets : Int) : Option (Writes 32) := do
  let tmp : M128 := self.val0
  let t1 ← mo (offsets + 0)
  let w2 ← _mm_store_ss (ptr + t1.toInt) tmp
  let tmp : M128 := _mm_shuffle_ps tmp tmp (_MM_SHUFFLE 0 3 2 1)
  let t3 ← mo (offsets + 1)
  let w4 ← _mm_store_ss (ptr + t3.toInt) tmp
  let tmp : M128 := _mm_shuffle_ps tmp tmp (_MM_SHUFFLE 0 3 2 1)
  let t5 ← mo (offsets + 2)
  let w6 ← _mm_store_ss (ptr + t5.toInt) tmp
  let tmp : M128 := _mm_shuffle_ps tmp tmp (_MM_SHUFFLE 0 3 2 1)
  let t7 ← mo (offsets + 3)
  let w8 ← _mm_store_ss (ptr + t7.toInt) tmp
  let tmp : M128 := self.val1
  let t9 ← mo (offsets + 4)
  let w10 ← _mm_store_ss (ptr + t9.toInt) tmp
  let tmp : M128 := _mm_shuffle_ps tmp tmp (_MM_SHUFFLE 0 3 2 1)
  let t11 ← mo (offsets + 5)
  let w12 ← _mm_store_ss (ptr + t11.toInt) tmp
  let tmp : M128 := _mm_shuffle_ps tmp tmp (_MM_SHUFFLE 0 3 2 1)
  let t13 ← mo (offsets + 6)
  let w14 ← _mm_store_ss (ptr + t13.toInt) tmp
  let tmp : M128 := _mm_shuffle_ps tmp tmp (_MM_SHUFFLE 0 3 2 1)
  let t15 ← mo (offsets + 7)
  let w16 ← _mm_store_ss (ptr + t15.toInt) tmp
  some (w2 ++ w4 ++ w6 ++ w8 ++ w10 ++ w12 ++ w14 ++ w16)

/-- `scatter` (detail/short_vec_sse_float_8.hpp:300-320; sse41) -/
def scatter_sse41 (E : FEnv) (mo : Mem 32) (self : V) (ptr : Int) (offsets : Int) : Option (Writes 32) := do
  let r1 := (_mm_extract_ps self.val0 0)
  let r2 := (_mm_extract_ps self.val0 1)
  let r3 := (_mm_extract_ps self.val0 2)
  let r4 := (_mm_extract_ps self.val0 3)
  let t1 ← mo (offsets + 0)
  let w2 : Writes 32 := [(ptr + t1.toInt, r1)]
  let t3 ← mo (offsets + 1)
  let w4 : Writes 32 := [(ptr + t3.toInt, r2)]
  let t5 ← mo (offsets + 2)
  let w6 : Writes 32 := [(ptr + t5.toInt, r3)]
  let t7 ← mo (offsets + 3)
  let w8 : Writes 32 := [(ptr + t7.toInt, r4)]
  let r1 := (_mm_extract_ps self.val1 0)
  let r2 := (_mm_extract_ps self.val1 1)
  let r3 := (_mm_extract_ps self.val1 2)
  let r4 := (_mm_extract_ps self.val1 3)
  let t9 ← mo (offsets + 4)
  let w10 : Writes 32 := [(ptr + t9.toInt, r1)]
  let t11 ← mo (offsets + 5)
  let w12 : Writes 32 := [(ptr + t11.toInt, r2)]
  let t13 ← mo (offsets + 6)
  let w14 : Writes 32 := [(ptr + t13.toInt, r3)]
  let t15 ← mo (offsets + 7)
  let w16 : Writes 32 := [(ptr + t15.toInt, r4)]
  some (w2 ++ w4 ++ w6 ++ w8 ++ w10 ++ w12 ++ w14 ++ w16)

/-- `blend` (detail/short_vec_sse_float_8.hpp:364-378; sse, sse2) -/
def blend_sse (E : FEnv) (self : V) (mask : Mask) (other : V) : V :=
  let val0 : M128 := _mm_or_ps (_mm_and_ps mask.val0 other.val0) (_mm_andnot_ps mask.val0 self.val0)
  let val1 : M128 := _mm_or_ps (_mm_and_ps mask.val1 other.val1) (_mm_andnot_ps mask.val1 self.val1)
  ⟨val0, val1⟩

/-- `blend` (detail/short_vec_sse_float_8.hpp:364-378; sse41) -/
def blend_sse41 (E : FEnv) (self : V) (mask : Mask) (other : V) : V :=
  let val0 : M128 := _mm_blendv_ps self.val0 other.val0 mask.val0
  let val1 : M128 := _mm_blendv_ps self.val1 other.val1 mask.val1
  ⟨val0, val1⟩

/-- `operator<<`, free function (detail/short_vec_sse_float_8.hpp:384-388) -/
def opStore (E : FEnv) (data : Int) (vec : V) : Option (Writes 32) := do
  let w1 ← store E vec data
  some w1

/-- `operator/=` of `sqrt_reference` (detail/short_vec_sse_float_8.hpp:415-420) -/
def opDivAssignSqrt (E : FEnv) (self : V) (other : SqrtRef) : V :=
  let val0 : M128 := _mm_mul_ps E self.val0 (_mm_rsqrt_ps E other.vec.val0)
  let val1 : M128 := _mm_mul_ps E self.val1 (_mm_rsqrt_ps E other.vec.val1)
  ⟨val0, val1⟩

/-- `operator/` of `sqrt_reference` (detail/short_vec_sse_float_8.hpp:422-428) -/
def opDivSqrt (E : FEnv) (self : V) (other : SqrtRef) : V :=
  ofRegs E (_mm_mul_ps E self.val0 (_mm_rsqrt_ps E other.vec.val0)) (_mm_mul_ps E self.val1 (_mm_rsqrt_ps E other.vec.val1))

/-- `sqrt`, free function (detail/short_vec_sse_float_8.hpp:430-434) -/
def sqrtFn (E : FEnv) (vec : V) : SqrtRef := SqrtRef.mk vec

/-- `operator<<`, free function (detail/short_vec_sse_float_8.hpp:436-447) -/
def print (E : FEnv) (vec : V) : List (Out 32) :=
  [.s "[", .v vec.val0.x0, .s ", ", .v vec.val0.x1, .s ", ", .v vec.val0.x2, .s ", ", .v vec.val0.x3, .s ", ", .v vec.val1.x0,
      .s ", ", .v vec.val1.x1, .s ", ", .v vec.val1.x2, .s ", ", .v vec.val1.x3, .s "]"]

end LFA.SV.SseFloat8

namespace LFA.SV.SseFloat16

/-- members of `short_vec<float, 16>` (detail/short_vec_sse_float_16.hpp:56) -/
structure V where
  val0 : M128
  val1 : M128
  val2 : M128
  val3 : M128

/-- lanes, from low to high -/
def V.lanes (v : V) : List (BitVec 32) := SV.lanes v.val0 ++ (SV.lanes v.val1 ++ (SV.lanes v.val2 ++ (SV.lanes v.val3)))

/-- `sqrt_reference<float, 16>`: keeps the vector until the square root is needed -/
structure SqrtRef where
  vec : V

/-- `mask_type` -/
abbrev Mask := V

/-- constructor (detail/short_vec_sse_float_16.hpp:68-74) -/
def bcast (E : FEnv) (data : BitVec 32) : V :=
  ⟨_mm_set1_ps data, _mm_set1_ps data, _mm_set1_ps data, _mm_set1_ps data⟩

/-- constructor (detail/short_vec_sse_float_16.hpp:82-92) -/
def ofRegs (E : FEnv) (val1 : M128) (val2 : M128) (val3 : M128) (val4 : M128) : V := ⟨val1, val2, val3, val4⟩

/-- `load` (detail/short_vec_sse_float_16.hpp:286-293) -/
def load (E : FEnv) (m : Mem 32) (self : V) (data : Int) : Option V := do
  let t1 ← _mm_loadu_ps m (data + 0)
  let val0 : M128 := t1
  let t2 ← _mm_loadu_ps m (data + 4)
  let val1 : M128 := t2
  let t3 ← _mm_loadu_ps m (data + 8)
  let val2 : M128 := t3
  let t4 ← _mm_loadu_ps m (data + 12)
  let val3 : M128 := t4
  some ⟨val0, val1, val2, val3⟩

/-- `store` (detail/short_vec_sse_float_16.hpp:305-312) -/
def store (E : FEnv) (self : V) (data : Int) : Option (Writes 32) := do
  let w1 ← _mm_storeu_ps (data + 0) self.val0
  let w2 ← _mm_storeu_ps (data + 4) self.val1
  let w3 ← _mm_storeu_ps (data + 8) self.val2
  let w4 ← _mm_storeu_ps (data + 12) self.val3
  some (w1 ++ w2 ++ w3 ++ w4)

/-- `sqrt` (detail/short_vec_sse_float_16.hpp:276-284) -/
def sqrt (E : FEnv) (self : V) : V :=
  ofRegs E (_mm_sqrt_ps E self.val0) (_mm_sqrt_ps E self.val1) (_mm_sqrt_ps E self.val2) (_mm_sqrt_ps E self.val3)

/-- constructor of `sqrt_reference` (detail/short_vec_sse_float_16.hpp:519-525) -/
def ofSqrt (E : FEnv) (other : SqrtRef) : V :=
  ⟨_mm_sqrt_ps E other.vec.val0, _mm_sqrt_ps E other.vec.val1, _mm_sqrt_ps E other.vec.val2, _mm_sqrt_ps E other.vec.val3⟩

/-- constructor (detail/short_vec_sse_float_16.hpp:76-80) -/
def ofPtr (E : FEnv) (m : Mem 32) (data : Int) : Option V := do
  let v1 ← load E m ⟨(uninit : M128), (uninit : M128), (uninit : M128), (uninit : M128)⟩ data
  some ⟨v1.val0, v1.val1, v1.val2, v1.val3⟩

/-- constructor (detail/short_vec_sse_float_16.hpp:95-100) -/
def ofList (E : FEnv) (m : Mem 32) (il : Int) : Option V := do
  let v1 ← load E m ⟨(uninit : M128), (uninit : M128), (uninit : M128), (uninit : M128)⟩ il
  some ⟨v1.val0, v1.val1, v1.val2, v1.val3⟩

/-- `any` (detail/short_vec_sse_float_16.hpp:106-123; sse, sse2) -/
def any_sse (E : FEnv) (self : V) : Bool :=
  let buf1 : M128 := _mm_or_ps (_mm_or_ps self.val0 self.val1) (_mm_or_ps self.val2 self.val3)
  let buf2 : M128 := _mm_shuffle_ps buf1 buf1 14
  let buf1 : M128 := _mm_or_ps buf1 buf2
  let buf2 : M128 := _mm_shuffle_ps buf1 buf1 1
  (truthy (_mm_cvtss_f32 buf1)) || (truthy (_mm_cvtss_f32 buf2))

/-- `any` (detail/short_vec_sse_float_16.hpp:106-123; sse41) -/
def any_sse41 (E : FEnv) (self : V) : Bool :=
  let buf1 : M128 := _mm_or_ps (_mm_or_ps self.val0 self.val1) (_mm_or_ps self.val2 self.val3)
  (0 : BitVec 32) == (_mm_testz_si128 (_mm_castps_si128 buf1) (_mm_castps_si128 buf1))

/-- `operator[]` (detail/short_vec_sse_float_16.hpp:125-142) -/
def opIndex (E : FEnv) (self : V) (i : BitVec 32) : Option (BitVec 32) := do
  let t1 ← dyn [self.val0, self.val1, self.val2, self.val3] (i.sshiftRight 2)
  let buf : M128 := t1
  let i : BitVec 32 := i &&& (3 : BitVec 32)
  if i == (3 : BitVec 32) then do
    some (_mm_cvtss_f32 (_mm_shuffle_ps buf buf 3))
  else do
    if i == (2 : BitVec 32) then do
      some (_mm_cvtss_f32 (_mm_shuffle_ps buf buf 2))
    else do
      if i == (1 : BitVec 32) then do
        some (_mm_cvtss_f32 (_mm_shuffle_ps buf buf 1))
      else do
        some (_mm_cvtss_f32 buf)

/-- `operator-=` (detail/short_vec_sse_float_16.hpp:144-151) -/
def opSubAssign (E : FEnv) (self : V) (other : V) : V :=
  let val0 : M128 := _mm_sub_ps E self.val0 other.val0
  let val1 : M128 := _mm_sub_ps E self.val1 other.val1
  let val2 : M128 := _mm_sub_ps E self.val2 other.val2
  let val3 : M128 := _mm_sub_ps E self.val3 other.val3
  ⟨val0, val1, val2, val3⟩

/-- `operator-` (detail/short_vec_sse_float_16.hpp:153-161) -/
def opSub (E : FEnv) (self : V) (other : V) : V :=
  ofRegs E (_mm_sub_ps E self.val0 other.val0) (_mm_sub_ps E self.val1 other.val1) (_mm_sub_ps E self.val2 other.val2)
      (_mm_sub_ps E self.val3 other.val3)

/-- `operator+=` (detail/short_vec_sse_float_16.hpp:163-170) -/
def opAddAssign (E : FEnv) (self : V) (other : V) : V :=
  let val0 : M128 := _mm_add_ps E self.val0 other.val0
  let val1 : M128 := _mm_add_ps E self.val1 other.val1
  let val2 : M128 := _mm_add_ps E self.val2 other.val2
  let val3 : M128 := _mm_add_ps E self.val3 other.val3
  ⟨val0, val1, val2, val3⟩

/-- `operator+` (detail/short_vec_sse_float_16.hpp:172-180) -/
def opAdd (E : FEnv) (self : V) (other : V) : V :=
  ofRegs E (_mm_add_ps E self.val0 other.val0) (_mm_add_ps E self.val1 other.val1) (_mm_add_ps E self.val2 other.val2)
      (_mm_add_ps E self.val3 other.val3)

/-- `operator*=` (detail/short_vec_sse_float_16.hpp:182-189) -/
def opMulAssign (E : FEnv) (self : V) (other : V) : V :=
  let val0 : M128 := _mm_mul_ps E self.val0 other.val0
  let val1 : M128 := _mm_mul_ps E self.val1 other.val1
  let val2 : M128 := _mm_mul_ps E self.val2 other.val2
  let val3 : M128 := _mm_mul_ps E self.val3 other.val3
  ⟨val0, val1, val2, val3⟩

/-- `operator*` (detail/short_vec_sse_float_16.hpp:191-199) -/
def opMul (E : FEnv) (self : V) (other : V) : V :=
  ofRegs E (_mm_mul_ps E self.val0 other.val0) (_mm_mul_ps E self.val1 other.val1) (_mm_mul_ps E self.val2 other.val2)
      (_mm_mul_ps E self.val3 other.val3)

/-- `operator/=` (detail/short_vec_sse_float_16.hpp:201-208) -/
def opDivAssign (E : FEnv) (self : V) (other : V) : V :=
  let val0 : M128 := _mm_div_ps E self.val0 other.val0
  let val1 : M128 := _mm_div_ps E self.val1 other.val1
  let val2 : M128 := _mm_div_ps E self.val2 other.val2
  let val3 : M128 := _mm_div_ps E self.val3 other.val3
  ⟨val0, val1, val2, val3⟩

/-- `operator/` (detail/short_vec_sse_float_16.hpp:213-221) -/
def opDiv (E : FEnv) (self : V) (other : V) : V :=
  ofRegs E (_mm_div_ps E self.val0 other.val0) (_mm_div_ps E self.val1 other.val1) (_mm_div_ps E self.val2 other.val2)
      (_mm_div_ps E self.val3 other.val3)

/-- `operator<` (detail/short_vec_sse_float_16.hpp:226-234) -/
def opLt (E : FEnv) (self : V) (other : V) : V :=
  ofRegs E (_mm_cmplt_ps E self.val0 other.val0) (_mm_cmplt_ps E self.val1 other.val1) (_mm_cmplt_ps E self.val2 other.val2)
      (_mm_cmplt_ps E self.val3 other.val3)

/-- `operator<=` (detail/short_vec_sse_float_16.hpp:236-244) -/
def opLe (E : FEnv) (self : V) (other : V) : V :=
  ofRegs E (_mm_cmple_ps E self.val0 other.val0) (_mm_cmple_ps E self.val1 other.val1) (_mm_cmple_ps E self.val2 other.val2)
      (_mm_cmple_ps E self.val3 other.val3)

/-- `operator==` (detail/short_vec_sse_float_16.hpp:246-254) -/
def opEq (E : FEnv) (self : V) (other : V) : V :=
  ofRegs E (_mm_cmpeq_ps E self.val0 other.val0) (_mm_cmpeq_ps E self.val1 other.val1) (_mm_cmpeq_ps E self.val2 other.val2)
      (_mm_cmpeq_ps E self.val3 other.val3)

/-- `operator>` (detail/short_vec_sse_float_16.hpp:256-264) -/
def opGt (E : FEnv) (self : V) (other : V) : V :=
  ofRegs E (_mm_cmpgt_ps E self.val0 other.val0) (_mm_cmpgt_ps E self.val1 other.val1) (_mm_cmpgt_ps E self.val2 other.val2)
      (_mm_cmpgt_ps E self.val3 other.val3)

/-- `operator>=` (detail/short_vec_sse_float_16.hpp:266-274) -/
def opGe (E : FEnv) (self : V) (other : V) : V :=
  ofRegs E (_mm_cmpge_ps E self.val0 other.val0) (_mm_cmpge_ps E self.val1 other.val1) (_mm_cmpge_ps E self.val2 other.val2)
      (_mm_cmpge_ps E self.val3 other.val3)

/-- `load_aligned` (detail/short_vec_sse_float_16.hpp:295-303) -/
def load_aligned (E : FEnv) (m : Mem 32) (self : V) (data : Int) : Option V := do
  assertAligned 4 data 16
  let t1 ← _mm_load_ps m (data + 0)
  let val0 : M128 := t1
  let t2 ← _mm_load_ps m (data + 4)
  let val1 : M128 := t2
  let t3 ← _mm_load_ps m (data + 8)
  let val2 : M128 := t3
  let t4 ← _mm_load_ps m (data + 12)
  let val3 : M128 := t4
  some ⟨val0, val1, val2, val3⟩

/-- `store_aligned` (detail/short_vec_sse_float_16.hpp:314-322) -/
def store_aligned (E : FEnv) (self : V) (data : Int) : Option (Writes 32) := do
  assertAligned 4 data 16
  let w1 ← _mm_store_ps (data + 0) self.val0
  let w2 ← _mm_store_ps (data + 4) self.val1
  let w3 ← _mm_store_ps (data + 8) self.val2
  let w4 ← _mm_store_ps (data + 12) self.val3
  some (w1 ++ w2 ++ w3 ++ w4)

/-- `store_nt` (detail/short_vec_sse_float_16.hpp:324-332) -/
def store_nt (E : FEnv) (self : V) (data : Int) : Option (Writes 32) := do
  assertAligned 4 data 16
  let w1 ← _mm_stream_ps (data + 0) self.val0
  let w2 ← _mm_stream_ps (data + 4) self.val1
  let w3 ← _mm_stream_ps (data + 8) self.val2
  let w4 ← _mm_stream_ps (data + 12) self.val3
  some (w1 ++ w2 ++ w3 ++ w4)

/-- `gather` (detail/short_vec_sse_float_16.hpp:394-426; sse, sse2) -/
def gather_sse (E : FEnv) (m : Mem 32) (mo : Mem 32) (self : V) (ptr : Int) (offsets : Int) : Option V := do
  let f1 : M128 := (uninit : M128)
  let f2 : M128 := (uninit : M128)
  let f3 : M128 := (uninit : M128)
  let f4 : M128 := (uninit : M128)
  let t1 ← mo (offsets + 0)
  let t2 ← _mm_load_ss m (ptr + t1.toInt)
  let f1 : M128 := t2
  let t3 ← mo (offsets + 2)
  let t4 ← _mm_load_ss m (ptr + t3.toInt)
  let f2 : M128 := t4
  let f1 : M128 := _mm_unpacklo_ps f1 f2
  let t5 ← mo (offsets + 1)
  let t6 ← _mm_load_ss m (ptr + t5.toInt)
  let f3 : M128 := t6
  let t7 ← mo (offsets + 3)
  let t8 ← _mm_load_ss m (ptr + t7.toInt)
  let f4 : M128 := t8
  let f3 : M128 := _mm_unpacklo_ps f3 f4
  let val0 : M128 := _mm_unpacklo_ps f1 f3
  let t9 ← mo (offsets + 4)
  let t10 ← _mm_load_ss m (ptr + t9.toInt)
  let f1 : M128 := t10
  let t11 ← mo (offsets + 6)
  let t12 ← _mm_load_ss m (ptr + t11.toInt)
  let f2 : M128 := t12
  let f1 : M128 := _mm_unpacklo_ps f1 f2
  let t13 ← mo (offsets + 5)
  let t14 ← _mm_load_ss m (ptr + t13.toInt)
  let f3 : M128 := t14
  let t15 ← mo (offsets + 7)
  let t16 ← _mm_load_ss m (ptr + t15.toInt)
  let f4 : M128 := t16
  let f3 : M128 := _mm_unpacklo_ps f3 f4
  let val1 : M128 := _mm_unpacklo_ps f1 f3
  let t17 ← mo (offsets + 8)
  let t18 ← _mm_load_ss m (ptr + t17.toInt)
  let f1 : M128 := t18
  let t19 ← mo (offsets + 10)
  let t20 ← _mm_load_ss m (ptr + t19.toInt)
  let f2 : M128 := t20
  let f1 : M128 := _mm_unpacklo_ps f1 f2
  let t21 ← mo (offsets + 9)
  let t22 ← _mm_load_ss m (ptr + t21.toInt)
  let f3 : M128 := t22
  let t23 ← mo (offsets + 11)
  let t24 ← _mm_load_ss m (ptr + t23.toInt)
  let f4 : M128 := t24
  let f3 : M128 := _mm_unpacklo_ps f3 f4
  let val2 : M128 := _mm_unpacklo_ps f1 f3
  let t25 ← mo (offsets + 12)
  let t26 ← _mm_load_ss m (ptr + t25.toInt)
  let f1 : M128 := t26
  let t27 ← mo (offsets + 14)
  let t28 ← _mm_load_ss m (ptr + t27.toInt)
  let f2 : M128 := t28
  let f1 : M128 := _mm_unpacklo_ps f1 f2
  let t29 ← mo (offsets + 13)
  let t30 ← _mm_load_ss m (ptr + t29.toInt)
  let f3 : M128 := t30
  let t31 ← mo (offsets + 15)
  let t32 ← _mm_load_ss m (ptr + t31.toInt)
  let f4 : M128 := t32
  let f3 : M128 := _mm_unpacklo_ps f3 f4
  let val3 : M128 := _mm_unpacklo_ps f1 f3
  some ⟨val0, val1, val2, val3⟩

/-- `gather` (detail/short_vec_sse_float_16.hpp:335-354; sse41) -/
def gather_sse41 (E : FEnv) (m : Mem 32) (mo : Mem 32) (self : V) (ptr : Int) (offsets : Int) : Option V := do
  let t1 ← mo (offsets + 0)
  let t2 ← _mm_load_ss m (ptr + t1.toInt)
  let val0 : M128 := t2
  let t3 ← mo (offsets + 1)
  let t4 ← SHORTVEC_INSERT_PS m val0 ptr t3 (_MM_MK_INSERTPS_NDX 0 1 0)
  let val0 : M128 := t4
  let t5 ← mo (offsets + 2)
  let t6 ← SHORTVEC_INSERT_PS m val0 ptr t5 (_MM_MK_INSERTPS_NDX 0 2 0)
  let val0 : M128 := t6
  let t7 ← mo (offsets + 3)
  let t8 ← SHORTVEC_INSERT_PS m val0 ptr t7 (_MM_MK_INSERTPS_NDX 0 3 0)
  let val0 : M128 := t8
  let t9 ← mo (offsets + 4)
  let t10 ← _mm_load_ss m (ptr + t9.toInt)
  let val1 : M128 := t10
  let t11 ← mo (offsets + 5)
  let t12 ← SHORTVEC_INSERT_PS m val1 ptr t11 (_MM_MK_INSERTPS_NDX 0 1 0)
  let val1 : M128 := t12
  let t13 ← mo (offsets + 6)
  let t14 ← SHORTVEC_INSERT_PS m val1 ptr t13 (_MM_MK_INSERTPS_NDX 0 2 0)
  let val1 : M128 := t14
  let t15 ← mo (offsets + 7)
  let t16 ← SHORTVEC_INSERT_PS m val1 ptr t15 (_MM_MK_INSERTPS_NDX 0 3 0)
  let val1 : M128 := t16
  let t17 ← mo (offsets + 8)
  let t18 ← _mm_load_ss m (ptr + t17.toInt)
  let val2 : M128 := t18
  let t19 ← mo (offsets + 9)
  let t20 ← SHORTVEC_INSERT_PS m val2 ptr t19 (_MM_MK_INSERTPS_NDX 0 1 0)
  let val2 : M128 := t20
  let t21 ← mo (offsets + 10)
  let t22 ← SHORTVEC_INSERT_PS m val2 ptr t21 (_MM_MK_INSERTPS_NDX 0 2 0)
  let val2 : M128 := t22
  let t23 ← mo (offsets + 11)
  let t24 ← SHORTVEC_INSERT_PS m val2 ptr t23 (_MM_MK_INSERTPS_NDX 0 3 0)
  let val2 : M128 := t24
  let t25 ← mo (offsets + 12)
  let t26 ← _mm_load_ss m (ptr + t25.toInt)
  let val3 : M128 := t26
  let t27 ← mo (offsets + 13)
  let t28 ← SHORTVEC_INSERT_PS m val3 ptr t27 (_MM_MK_INSERTPS_NDX 0 1 0)
  let val3 : M128 := t28
  let t29 ← mo (offsets + 14)
  let t30 ← SHORTVEC_INSERT_PS m val3 ptr t29 (_MM_MK_INSERTPS_NDX 0 2 0)
  let val3 : M128 := t30
  let t31 ← mo (offsets + 15)
  let t32 ← SHORTVEC_INSERT_PS m val3 ptr t31 (_MM_MK_INSERTPS_NDX 0 3 0)
  let val3 : M128 := t32
  some ⟨val0, val1, val2, val3⟩

/-- `scatter` (detail/short_vec_sse_float_16.hpp:428-463; sse, sse2) -/
def scatter_sse (E : FEnv) (mo : Mem 32) (self : V) (ptr : Int) (offsets : Int) : Option (Writes 32) := do
  let tmp : M128 := self.val0
  let t1 ← mo (offsets + 0)
  let w2 ← _mm_store_ss (ptr + t1.toInt) tmp
  let tmp : M128 := _mm_shuffle_ps tmp tmp (_MM_SHUFFLE 0 3 2 1)
  let t3 ← mo (offsets + 1)
  let w4 ← _mm_store_ss (ptr + t3.toInt) tmp
  let tmp : M128 := _mm_shuffle_ps tmp tmp (_MM_SHUFFLE 0 3 2 1)
  let t5 ← mo (offsets + 2)
  let w6 ← _mm_store_ss (ptr + t5.toInt) tmp
  let tmp : M128 := _mm_shuffle_ps tmp tmp (_MM_SHUFFLE 0 3 2 1)
  let t7 ← mo (offsets + 3)
  let w8 ← _mm_store_ss (ptr + t7.toInt) tmp
  let tmp : M128 := self.val1
  let t9 ← mo (offsets + 4)
  let w10 ← _mm_store_ss (ptr + t9.toInt) tmp
  let tmp : M128 := _mm_shuffle_ps tmp tmp (_MM_SHUFFLE 0 3 2 1)
  let t11 ← mo (offsets + 5)
  let w12 ← _mm_store_ss (ptr + t11.toInt) tmp
  let tmp : M128 := _mm_shuffle_ps tmp tmp (_MM_SHUFFLE 0 3 2 1)
  let t13 ← mo (offsets + 6)
  let w14 ← _mm_store_ss (ptr + t13.toInt) tmp
  let tmp : M128 := _mm_shuffle_ps tmp tmp (_MM_SHUFFLE 0 3 2 1)
  let t15 ← mo (offsets + 7)
  let w16 ← _mm_store_ss (ptr + t15.toInt) tmp
  let tmp : M128 := self.val2
  let t17 ← mo (offsets + 8)
  let w18 ← _mm_store_ss (ptr + t17.toInt) tmp
  let tmp : M128 := _mm_shuffle_ps tmp tmp (_MM_SHUFFLE 0 3 2 1)
  let t19 ← mo (offsets + 9)
  let w20 ← _mm_store_ss (ptr + t19.toInt) tmp
  let tmp : M128 := _mm_shuffle_ps tmp tmp (_MM_SHUFFLE 0 3 2 1)
  let t21 ← mo (offsets + 10)
  let w22 ← _mm_store_ss (ptr + t21.toInt) tmp
  let tmp : M128 := _mm_shuffle_ps tmp tmp (_MM_SHUFFLE 0 3 2 1)
  let t23 ← mo (offsets + 11)
  let w24 ← _mm_store_ss (ptr + t23.toInt) tmp
  let tmp : M128 := self.val3
  let t25 ← mo (offsets + 12)
  let w26 ← _mm_store_ss (ptr + t25.toInt) tmp
  let tmp : M128 := _mm_shuffle_ps tmp tmp (_MM_SHUFFLE 0 3 2 1)
  let t27 ← mo (offsets + 13)
  let w28 ← _mm_store_ss (ptr + t27.toInt) tmp
  let tmp : M128 := _mm_shuffle_ps tmp tmp (_MM_SHUFFLE 0 3 2 1)
  let t29 ← mo (offsets + 14)
  let w30 ← _mm_store_ss (ptr + t29.toInt) tmp
  let tmp : M128 := _mm_shuffle_ps tmp tmp (_MM_SHUFFLE 0 3 2 1)
  let t31 ← mo (offsets + 15)
  let w32 ← _mm_store_ss (ptr + t31.toInt) tmp
  some (w2 ++ w4 ++ w6 ++ w8 ++ w10 ++ w12 ++ w14 ++ w16 ++ w18 ++ w20 ++ w22 ++ w24 ++ w26 ++ w28 ++ w30 ++ w32)

/-- `scatter` (detail/short_vec_sse_float_16.hpp:356-392; sse41) -/
def scatter_sse41 (E : FEnv) (mo : Mem 32) (self : V) (ptr : Int) (offsets : Int) : Option (Writes 32) := do
  let r1 := (_mm_extract_ps self.val0 0)
  let r2 := (_mm_extract_ps self.val0 1)
  let r3 := (_mm_extract_ps self.val0 2)
  let r4 := (_mm_extract_ps self.val0 3)
  let t1 ← mo (offsets + 0)
  let w2 : Writes 32 := [(ptr + t1.toInt, r1)]
  let t3 ← mo (offsets + 1)
  let w4 : Writes 32 := [(ptr + t3.toInt, r2)]
  let t5 ← mo (offsets + 2)
  let w6 : Writes 32 := [(ptr + t5.toInt, r3)]
  let t7 ← mo (offsets + 3)
  let w8 : Writes 32 := [(ptr + t7.toInt, r4)]
  let r1 := (_mm_extract_ps self.val1 0)
  let r2 := (_mm_extract_ps self.val1 1)
  let r3 := (_mm_extract_ps self.val1 2)
  let r4 := (_mm_extract_ps self.val1 3)
  let t9 ← mo (offsets + 4)
  let w10 : Writes 32 := [(ptr + t9.toInt, r1)]
  let t11 ← mo (offsets + 5)
  let w12 : Writes 32 := [(ptr + t11.toInt, r2)]
  let t13 ← mo (offsets + 6)
  let w14 : Writes 32 := [(ptr + t13.toInt, r3)]
  let t15 ← mo (offsets + 7)
  let w16 : Writes 32 := [(ptr + t15.toInt, r4)]
  let r1 := (_mm_extract_ps self.val2 0)
  let r2 := (_mm_extract_ps self.val2 1)
  let r3 := (_mm_extract_ps self.val2 2)
  let r4 := (_mm_extract_ps self.val2 3)
  let t17 ← mo (offsets + 8)
  let w18 : Writes 32 := [(ptr + t17.toInt, r1)]
  let t19 ← mo (offsets + 9)
  let w20 : Writes 32 := [(ptr + t19.toInt, r2)]
  let t21 ← mo (offsets + 10)
  let w22 : Writes 32 := [(ptr + t21.toInt, r3)]
  let t23 ← mo (offsets + 11)
  let w24 : Writes 32 := [(ptr + t23.toInt, r4)]
  let r1 := (_mm_extract_ps self.val3 0)
  let r2 := (_mm_extract_ps self.val3 1)
  let r3 := (_mm_extract_ps self.val3 2)
  let r4 := (_mm_extract_ps self.val3 3)
  let t25 ← mo (offsets + 12)
  let w26 : Writes 32 := [(ptr + t25.toInt, r1)]
  let t27 ← mo (offsets + 13)
  let w28 : Writes 32 := [(ptr + t27.toInt, r2)]
  let t29 ← mo (offsets + 14)
  let w30 : Writes 32 := [(ptr + t29.toInt, r3)]
  let t31 ← mo (offsets + 15)
  let w32 : Writes 32 := [(ptr + t31.toInt, r4)]
  some (w2 ++ w4 ++ w6 ++ w8 ++ w10 ++ w12 ++ w14 ++ w16 ++ w18 ++ w20 ++ w22 ++ w24 ++ w26 ++ w28 ++ w30 ++ w32)

/-- `blend` (detail/short_vec_sse_float_16.hpp:466-488; sse, sse2) -/
def blend_sse (E : FEnv) (self : V) (mask : Mask) (other : V) : V :=
  let val0 : M128 := _mm_or_ps (_mm_and_ps mask.val0 other.val0) (_mm_andnot_ps mask.val0 self.val0)
  let val1 : M128 := _mm_or_ps (_mm_and_ps mask.val1 other.val1) (_mm_andnot_ps mask.val1 self.val1)
  let val2 : M128 := _mm_or_ps (_mm_and_ps mask.val2 other.val2) (_mm_andnot_ps mask.val2 self.val2)
  let val3 : M128 := _mm_or_ps (_mm_and_ps mask.val3 other.val3) (_mm_andnot_ps mask.val3 self.val3)
  ⟨val0, val1, val2, val3⟩

/-- `blend` (detail/short_vec_sse_float_16.hpp:466-488; sse41) -/
def blend_sse41 (E : FEnv) (self : V) (mask : Mask) (other : V) : V :=
  let val0 : M128 := _mm_blendv_ps self.val0 other.val0 mask.val0
  let val1 : M128 := _mm_blendv_ps self.val1 other.val1 mask.val1
  let val2 : M128 := _mm_blendv_ps self.val2 other.val2 mask.val2
  let val3 : M128 := _mm_blendv_ps self.val3 other.val3 mask.val3
  ⟨val0, val1, val2, val3⟩

/-- `operator<<`, free function (detail/short_vec_sse_float_16.hpp:494-498) -/
def opStore (E : FEnv) (data : Int) (vec : V) : Option (Writes 32) := do
  let w1 ← store E vec data
  some w1

/-- `operator/=` of `sqrt_reference` (detail/short_vec_sse_float_16.hpp:527-534) -/
def opDivAssignSqrt (E : FEnv) (self : V) (other : SqrtRef) : V :=
  let val0 : M128 := _mm_mul_ps E self.val0 (_mm_rsqrt_ps E other.vec.val0)
  let val1 : M128 := _mm_mul_ps E self.val1 (_mm_rsqrt_ps E other.vec.val1)
  let val2 : M128 := _mm_mul_ps E self.val2 (_mm_rsqrt_ps E other.vec.val2)
  let val3 : M128 := _mm_mul_ps E self.val3 (_mm_rsqrt_ps E other.vec.val3)
  ⟨val0, val1, val2, val3⟩

/-- `operator/` of `sqrt_reference` (detail/short_vec_sse_float_16.hpp:536-544) -/
def opDivSqrt (E : FEnv) (self : V) (other : SqrtRef) : V :=
  ofRegs E (_mm_mul_ps E self.val0 (_mm_rsqrt_ps E other.vec.val0)) (_mm_mul_ps E self.val1 (_mm_rsqrt_ps E other.vec.val1))
      (_mm_mul_ps E self.val2 (_mm_rsqrt_ps E other.vec.val2)) (_mm_mul_ps E self.val3 (_mm_rsqrt_ps E other.vec.val3))

/-- `sqrt`, free function (detail/short_vec_sse_float_16.hpp:546-550) -/
def sqrtFn (E : FEnv) (vec : V) : SqrtRef := SqrtRef.mk vec

/-- `operator<<`, free function (detail/short_vec_sse_float_16.hpp:552-567) -/
def print (E : FEnv) (vec : V) : List (Out 32) :=
  [.s "[", .v vec.val0.x0, .s ", ", .v vec.val0.x1, .s ", ", .v vec.val0.x2, .s ", ", .v vec.val0.x3, .s ", ", .v vec.val1.x0,
      .s ", ", .v vec.val1.x1, .s ", ", .v vec.val1.x2, .s ", ", .v vec.val1.x3, .s ", ", .v vec.val2.x0, .s ", ", .v
      vec.val2.x1, .s ", ", .v vec.val2.x2, .s ", ", .v vec.val2.x3, .s ", ", .v vec.val3.x0, .s ", ", .v vec.val3.x1, .s ", ",
      .v vec.val3.x2, .s ", ", .v vec.val3.x3, .s "]"]

end LFA.SV.SseFloat16

namespace LFA.SV.SseFloat32

/-- members of `short_vec<float, 32>` (detail/short_vec_sse_float_32.hpp:56) -/
structure V where
  val0 : M128
  val1 : M128
  val2 : M128
  val3 : M128
  val4 : M128
  val5 : M128
  val6 : M128
  val7 : M128

/-- lanes, from low to high -/
def V.lanes (v : V) : List (BitVec 32) := SV.lanes v.val0 ++ (SV.lanes v.val1 ++ (SV.lanes v.val2 ++ (SV.lanes v.val3 ++
    (SV.lanes v.val4 ++ (SV.lanes v.val5 ++ (SV.lanes v.val6 ++ (SV.lanes v.val7)))))))

/-- `sqrt_reference<float, 32>`: keeps the vector until the square root is needed -/
structure SqrtRef where
  vec : V

/-- `mask_type` -/
abbrev Mask := V

/-- constructor (detail/short_vec_sse_float_32.hpp:68-78) -/
def bcast (E : FEnv) (data : BitVec 32) : V :=
  ⟨_mm_set1_ps data, _mm_set1_ps data, _mm_set1_ps data, _mm_set1_ps data, _mm_set1_ps data, _mm_set1_ps data, _mm_set1_ps
      data, _mm_set1_ps data⟩

/-- constructor (detail/short_vec_sse_float_32.hpp:86-104) -/
def ofRegs (E : FEnv) (val1 : M128) (val2 : M128) (val3 : M128) (val4 : M128) (val5 : M128) (val6 : M128) (val7 : M128) (val8 :
    M128) : V :=
  ⟨val1, val2, val3, val4, val5, val6, val7, val8⟩

/-- `load` (detail/short_vec_sse_float_32.hpp:356-367) -/
def load (E : FEnv) (m : Mem 32) (self : V) (data : Int) : Option V := do
  let t1 ← _mm_loadu_ps m (data + 0)
  let val0 : M128 := t1
  let t2 ← _mm_loadu_ps m (data + 4)
  let val1 : M128 := t2
  let t3 ← _mm_loadu_ps m (data + 8)
  let val2 : M128 := t3
  let t4 ← _mm_loadu_ps m (data + 12)
  let val3 : M128 := t4
  let t5 ← _mm_loadu_ps m (data + 16)
  let val4 : M128 := t5
  let t6 ← _mm_loadu_ps m (data + 20)
  let val5 : M128 := t6
  let t7 ← _mm_loadu_ps m (data + 24)
  let val6 : M128 := t7
  let t8 ← _mm_loadu_ps m (data + 28)
  let val7 : M128 := t8
  some ⟨val0, val1, val2, val3, val4, val5, val6, val7⟩

/-- `store` (detail/short_vec_sse_float_32.hpp:383-394) -/
def store (E : FEnv) (self : V) (data : Int) : Option (Writes 32) := do
  let w1 ← _mm_storeu_ps (data + 0) self.val0
  let w2 ← _mm_storeu_ps (data + 4) self.val1
  let w3 ← _mm_storeu_ps (data + 8) self.val2
  let w4 ← _mm_storeu_ps (data + 12) self.val3
  let w5 ← _mm_storeu_ps (data + 16) self.val4
  let w6 ← _mm_storeu_ps (data + 20) self.val5
  let w7 ← _mm_storeu_ps (data + 24) self.val6
  let w8 ← _mm_storeu_ps (data + 28) self.val7
  some (w1 ++ w2 ++ w3 ++ w4 ++ w5 ++ w6 ++ w7 ++ w8)

/-- `sqrt` (detail/short_vec_sse_float_32.hpp:342-354) -/
def sqrt (E : FEnv) (self : V) : V :=
  ofRegs E (_mm_sqrt_ps E self.val0) (_mm_sqrt_ps E self.val1) (_mm_sqrt_ps E self.val2) (_mm_sqrt_ps E self.val3) (_mm_sqrt_ps
      E self.val4) (_mm_sqrt_ps E self.val5) (_mm_sqrt_ps E self.val6) (_mm_sqrt_ps E self.val7)

/-- constructor of `sqrt_reference` (detail/short_vec_sse_float_32.hpp:762-772) -/
def ofSqrt (E : FEnv) (other : SqrtRef) : V :=
  ⟨_mm_sqrt_ps E other.vec.val0, _mm_sqrt_ps E other.vec.val1, _mm_sqrt_ps E other.vec.val2, _mm_sqrt_ps E other.vec.val3,
      _mm_sqrt_ps E other.vec.val4, _mm_sqrt_ps E other.vec.val5, _mm_sqrt_ps E other.vec.val6, _mm_sqrt_ps E other.vec.val7⟩

/-- constructor (detail/short_vec_sse_float_32.hpp:80-84) -/
def ofPtr (E : FEnv) (m : Mem 32) (data : Int) : Option V := do
  let v1 ← load E m ⟨(uninit : M128), (uninit : M128), (uninit : M128), (uninit : M128), (uninit : M128), (uninit : M128),
      (uninit : M128), (uninit : M128)⟩ data
  some ⟨v1.val0, v1.val1, v1.val2, v1.val3, v1.val4, v1.val5, v1.val6, v1.val7⟩

/-- constructor (detail/short_vec_sse_float_32.hpp:107-112) -/
def ofList (E : FEnv) (m : Mem 32) (il : Int) : Option V := do
  let v1 ← load E m ⟨(uninit : M128), (uninit : M128), (uninit : M128), (uninit : M128), (uninit : M128), (uninit : M128),
      (uninit : M128), (uninit : M128)⟩ il
  some ⟨v1.val0, v1.val1, v1.val2, v1.val3, v1.val4, v1.val5, v1.val6, v1.val7⟩

/-- `any` (detail/short_vec_sse_float_32.hpp:118-137; sse, sse2) -/
def any_sse (E : FEnv) (self : V) : Bool :=
  let buf1 : M128 := _mm_or_ps (_mm_or_ps (_mm_or_ps self.val0 self.val1) (_mm_or_ps self.val2 self.val3)) (_mm_or_ps
      (_mm_or_ps self.val4 self.val5) (_mm_or_ps self.val6 self.val7))
  let buf2 : M128 := _mm_shuffle_ps buf1 buf1 14
  let buf1 : M128 := _mm_or_ps buf1 buf2
  let buf2 : M128 := _mm_shuffle_ps buf1 buf1 1
  (truthy (_mm_cvtss_f32 buf1)) || (truthy (_mm_cvtss_f32 buf2))

/-- `any` (detail/short_vec_sse_float_32.hpp:118-137; sse41) -/
def any_sse41 (E : FEnv) (self : V) : Bool :=
  let buf1 : M128 := _mm_or_ps (_mm_or_ps (_mm_or_ps self.val0 self.val1) (_mm_or_ps self.val2 self.val3)) (_mm_or_ps
      (_mm_or_ps self.val4 self.val5) (_mm_or_ps self.val6 self.val7))
  (0 : BitVec 32) == (_mm_testz_si128 (_mm_castps_si128 buf1) (_mm_castps_si128 buf1))

/-- `operator[]` (detail/short_vec_sse_float_32.hpp:139-156) -/
def opIndex (E : FEnv) (self : V) (i : BitVec 32) : Option (BitVec 32) := do
  let t1 ← dyn [self.val0, self.val1, self.val2, self.val3, self.val4, self.val5, self.val6, self.val7] (i.sshiftRight 2)
  let buf : M128 := t1
  let i : BitVec 32 := i &&& (3 : BitVec 32)
  if i == (3 : BitVec 32) then do
    some (_mm_cvtss_f32 (_mm_shuffle_ps buf buf 3))
  else do
    if i == (2 : BitVec 32) then do
      some (_mm_cvtss_f32 (_mm_shuffle_ps buf buf 2))
    else do
      if i == (1 : BitVec 32) then do
        some (_mm_cvtss_f32 (_mm_shuffle_ps buf buf 1))
      else do
        some (_mm_cvtss_f32 buf)

/-- `operator-=` (detail/short_vec_sse_float_32.hpp:158-169) -/
def opSubAssign (E : FEnv) (self : V) (other : V) : V :=
  let val0 : M128 := _mm_sub_ps E self.val0 other.val0
  let val1 : M128 := _mm_sub_ps E self.val1 other.val1
  let val2 : M128 := _mm_sub_ps E self.val2 other.val2
  let val3 : M128 := _mm_sub_ps E self.val3 other.val3
  let val4 : M128 := _mm_sub_ps E self.val4 other.val4
  let val5 : M128 := _mm_sub_ps E self.val5 other.val5
  let val6 : M128 := _mm_sub_ps E self.val6 other.val6
  let val7 : M128 := _mm_sub_ps E self.val7 other.val7
  ⟨val0, val1, val2, val3, val4, val5, val6, val7⟩

/-- `operator-` (detail/short_vec_sse_float_32.hpp:171-183) -/
def opSub (E : FEnv) (self : V) (other : V) : V :=
  ofRegs E (_mm_sub_ps E self.val0 other.val0) (_mm_sub_ps E self.val1 other.val1) (_mm_sub_ps E self.val2 other.val2)
      (_mm_sub_ps E self.val3 other.val3) (_mm_sub_ps E self.val4 other.val4) (_mm_sub_ps E self.val5 other.val5) (_mm_sub_ps E
      self.val6 other.val6) (_mm_sub_ps E self.val7 other.val7)

/-- `operator+=` (detail/short_vec_sse_float_32.hpp:185-196) -/
def opAddAssign (E : FEnv) (self : V) (other : V) : V :=
  let val0 : M128 := _mm_add_ps E self.val0 other.val0
  let val1 : M128 := _mm_add_ps E self.val1 other.val1
  let val2 : M128 := _mm_add_ps E self.val2 other.val2
  let val3 : M128 := _mm_add_ps E self.val3 other.val3
  let val4 : M128 := _mm_add_ps E self.val4 other.val4
  let val5 : M128 := _mm_add_ps E self.val5 other.val5
  let val6 : M128 := _mm_add_ps E self.val6 other.val6
  let val7 : M128 := _mm_add_ps E self.val7 other.val7
  ⟨val0, val1, val2, val3, val4, val5, val6, val7⟩

/-- `operator+` (detail/short_vec_sse_float_32.hpp:198-210) -/
def opAdd (E : FEnv) (self : V) (other : V) : V :=
  ofRegs E (_mm_add_ps E self.val0 other.val0) (_mm_add_ps E self.val1 other.val1) (_mm_add_ps E self.val2 other.val2)
      (_mm_add_ps E self.val3 other.val3) (_mm_add_ps E self.val4 other.val4) (_mm_add_ps E self.val5 other.val5) (_mm_add_ps E
      self.val6 other.val6) (_mm_add_ps E self.val7 other.val7)

/-- `operator*=` (detail/short_vec_sse_float_32.hpp:212-223) -/
def opMulAssign (E : FEnv) (self : V) (other : V) : V :=
  let val0 : M128 := _mm_mul_ps E self.val0 other.val0
  let val1 : M128 := _mm_mul_ps E self.val1 other.val1
  let val2 : M128 := _mm_mul_ps E self.val2 other.val2
  let val3 : M128 := _mm_mul_ps E self.val3 other.val3
  let val4 : M128 := _mm_mul_ps E self.val4 other.val4
  let val5 : M128 := _mm_mul_ps E self.val5 other.val5
  let val6 : M128 := _mm_mul_ps E self.val6 other.val6
  let val7 : M128 := _mm_mul_ps E self.val7 other.val7
  ⟨val0, val1, val2, val3, val4, val5, val6, val7⟩

/-- `operator*` (detail/short_vec_sse_float_32.hpp:225-237) -/
def opMul (E : FEnv) (self : V) (other : V) : V :=
  ofRegs E (_mm_mul_ps E self.val0 other.val0) (_mm_mul_ps E self.val1 other.val1) (_mm_mul_ps E self.val2 other.val2)
      (_mm_mul_ps E self.val3 other.val3) (_mm_mul_ps E self.val4 other.val4) (_mm_mul_ps E self.val5 other.val5) (_mm_mul_ps E
      self.val6 other.val6) (_mm_mul_ps E self.val7 other.val7)

/-- `operator/=` (detail/short_vec_sse_float_32.hpp:239-250) -/
def opDivAssign (E : FEnv) (self : V) (other : V) : V :=
  let val0 : M128 := _mm_div_ps E self.val0 other.val0
  let val1 : M128 := _mm_div_ps E self.val1 other.val1
  let val2 : M128 := _mm_div_ps E self.val2 other.val2
  let val3 : M128 := _mm_div_ps E self.val3 other.val3
  let val4 : M128 := _mm_div_ps E self.val4 other.val4
  let val5 : M128 := _mm_div_ps E self.val5 other.val5
  let val6 : M128 := _mm_div_ps E self.val6 other.val6
  let val7 : M128 := _mm_div_ps E self.val7 other.val7
  ⟨val0, val1, val2, val3, val4, val5, val6, val7⟩

/-- `operator/` (detail/short_vec_sse_float_32.hpp:255-267) -/
def opDiv (E : FEnv) (self : V) (other : V) : V :=
  ofRegs E (_mm_div_ps E self.val0 other.val0) (_mm_div_ps E self.val1 other.val1) (_mm_div_ps E self.val2 other.val2)
      (_mm_div_ps E self.val3 other.val3) (_mm_div_ps E self.val4 other.val4) (_mm_div_ps E self.val5 other.val5) (_mm_div_ps E
      self.val6 other.val6) (_mm_div_ps E self.val7 other.val7)

/-- `operator<` (detail/short_vec_sse_float_32.hpp:272-284) -/
def opLt (E : FEnv) (self : V) (other : V) : V :=
  ofRegs E (_mm_cmplt_ps E self.val0 other.val0) (_mm_cmplt_ps E self.val1 other.val1) (_mm_cmplt_ps E self.val2 other.val2)
      (_mm_cmplt_ps E self.val3 other.val3) (_mm_cmplt_ps E self.val4 other.val4) (_mm_cmplt_ps E self.val5 other.val5)
      (_mm_cmplt_ps E self.val6 other.val6) (_mm_cmplt_ps E self.val7 other.val7)

/-- `operator<=` (detail/short_vec_sse_float_32.hpp:286-298) -/
def opLe (E : FEnv) (self : V) (other : V) : V :=
  ofRegs E (_mm_cmple_ps E self.val0 other.val0) (_mm_cmple_ps E self.val1 other.val1) (_mm_cmple_ps E self.val2 other.val2)
      (_mm_cmple_ps E self.val3 other.val3) (_mm_cmple_ps E self.val4 other.val4) (_mm_cmple_ps E self.val5 other.val5)
      (_mm_cmple_ps E self.val6 other.val6) (_mm_cmple_ps E self.val7 other.val7)

/-- `operator==` (detail/short_vec_sse_float_32.hpp:300-312) -/
def opEq (E : FEnv) (self : V) (other : V) : V :=
  ofRegs E (_mm_cmpeq_ps E self.val0 other.val0) (_mm_cmpeq_ps E self.val1 other.val1) (_mm_cmpeq_ps E self.val2 other.val2)
      (_mm_cmpeq_ps E self.val3 other.val3) (_mm_cmpeq_ps E self.val4 other.val4) (_mm_cmpeq_ps E self.val5 other.val5)
      (_mm_cmpeq_ps E self.val6 other.val6) (_mm_cmpeq_ps E self.val7 other.val7)

/-- `operator>` (detail/short_vec_sse_float_32.hpp:314-326) -/
def opGt (E : FEnv) (self : V) (other : V) : V :=
  ofRegs E (_mm_cmpgt_ps E self.val0 other.val0) (_mm_cmpgt_ps E self.val1 other.val1) (_mm_cmpgt_ps E self.val2 other.val2)
      (_mm_cmpgt_ps E self.val3 other.val3) (_mm_cmpgt_ps E self.val4 other.val4) (_mm_cmpgt_ps E self.val5 other.val5)
      (_mm_cmpgt_ps E self.val6 other.val6) (_mm_cmpgt_ps E self.val7 other.val7)

/-- `operator>=` (detail/short_vec_sse_float_32.hpp:328-340) -/
def opGe (E : FEnv) (self : V) (other : V) : V :=
  ofRegs E (_mm_cmpge_ps E self.val0 other.val0) (_mm_cmpge_ps E self.val1 other.val1) (_mm_cmpge_ps E self.val2 other.val2)
      (_mm_cmpge_ps E self.val3 other.val3) (_mm_cmpge_ps E self.val4 other.val4) (_mm_cmpge_ps E self.val5 other.val5)
      (_mm_cmpge_ps E self.val6 other.val6) (_mm_cmpge_ps E self.val7 other.val7)

/-- `load_aligned` (detail/short_vec_sse_float_32.hpp:369-381) -/
def load_aligned (E : FEnv) (m : Mem 32) (self : V) (data : Int) : Option V := do
  assertAligned 4 data 16
  let t1 ← _mm_load_ps m (data + 0)
  let val0 : M128 := t1
  let t2 ← _mm_load_ps m (data + 4)
  let val1 : M128 := t2
  let t3 ← _mm_load_ps m (data + 8)
  let val2 : M128 := t3
  let t4 ← _mm_load_ps m (data + 12)
  let val3 : M128 := t4
  let t5 ← _mm_load_ps m (data + 16)
  let val4 : M128 := t5
  let t6 ← _mm_load_ps m (data + 20)
  let val5 : M128 := t6
  let t7 ← _mm_load_ps m (data + 24)
  let val6 : M128 := t7
  let t8 ← _mm_load_ps m (data + 28)
  let val7 : M128 := t8
  some ⟨val0, val1, val2, val3, val4, val5, val6, val7⟩

/-- `store_aligned` (detail/short_vec_sse_float_32.hpp:396-408) -/
def store_aligned (E : FEnv) (self : V) (data : Int) : Option (Writes 32) := do
  assertAligned 4 data 16
  let w1 ← _mm_store_ps (data + 0) self.val0
  let w2 ← _mm_store_ps (data + 4) self.val1
  let w3 ← _mm_store_ps (data + 8) self.val2
  let w4 ← _mm_store_ps (data + 12) self.val3
  let w5 ← _mm_store_ps (data + 16) self.val4
  let w6 ← _mm_store_ps (data + 20) self.val5
  let w7 ← _mm_store_ps (data + 24) self.val6
  let w8 ← _mm_store_ps (data + 28) self.val7
  some (w1 ++ w2 ++ w3 ++ w4 ++ w5 ++ w6 ++ w7 ++ w8)

/-- `store_nt` (detail/short_vec_sse_float_32.hpp:410-422) -/
def store_nt (E : FEnv) (self : V) (data : Int) : Option (Writes 32) := do
  assertAligned 4 data 16
  let w1 ← _mm_stream_ps (data + 0) self.val0
  let w2 ← _mm_stream_ps (data + 4) self.val1
  let w3 ← _mm_stream_ps (data + 8) self.val2
  let w4 ← _mm_stream_ps (data + 12) self.val3
  let w5 ← _mm_stream_ps (data + 16) self.val4
  let w6 ← _mm_stream_ps (data + 20) self.val5
  let w7 ← _mm_stream_ps (data + 24) self.val6
  let w8 ← _mm_stream_ps (data + 28) self.val7
  some (w1 ++ w2 ++ w3 ++ w4 ++ w5 ++ w6 ++ w7 ++ w8)

/-- `gather` (detail/short_vec_sse_float_32.hpp:546-614; sse, sse2) -/
def gather_sse (E : FEnv) (m : Mem 32) (mo : Mem 32) (self : V) (ptr : Int) (offsets : Int) : Option V := do
  let f1 : M128 := (uninit : M128)
  let f2 : M128 := (uninit : M128)
  let f3 : M128 := (uninit : M128)
  let f4 : M128 := (uninit : M128)
  let t1 ← mo (offsets + 0)
  let t2 ← _mm_load_ss m (ptr + t1.toInt)
  let f1 : M128 := t2
  let t3 ← mo (offsets + 2)
  let t4 ← _mm_load_ss m (ptr + t3.toInt)
  let f2 : M128 := t4
  let f1 : M128 := _mm_unpacklo_ps f1 f2
  let t5 ← mo (offsets + 1)
  let t6 ← _mm_load_ss m (ptr + t5.toInt)
  let f3 : M128 := t6
  let t7 ← mo (offsets + 3)
  let t8 ← _mm_load_ss m (ptr + t7.toInt)
  let f4 : M128 := t8
  let f3 : M128 := _mm_unpacklo_ps f3 f4
  let val0 : M128 := _mm_unpacklo_ps f1 f3
  let t9 ← mo (offsets + 4)
  let t10 ← _mm_load_ss m (ptr + t9.toInt)
  let f1 : M128 := t10
  let t11 ← mo (offsets + 6)
  let t12 ← _mm_load_ss m (ptr + t11.toInt)
  let f2 : M128 := t12
  let f1 : M128 := _mm_unpacklo_ps f1 f2
  let t13 ← mo (offsets + 5)
  let t14 ← _mm_load_ss m (ptr + t13.toInt)
  let f3 : M128 := t14
  let t15 ← mo (offsets + 7)
  let t16 ← _mm_load_ss m (ptr + t15.toInt)
  let f4 : M128 := t16
  let f3 : M128 := _mm_unpacklo_ps f3 f4
  let val1 : M128 := _mm_unpacklo_ps f1 f3
  let t17 ← mo (offsets + 8)
  let t18 ← _mm_load_ss m (ptr + t17.toInt)
  let f1 : M128 := t18
  let t19 ← mo (offsets + 10)
  let t20 ← _mm_load_ss m (ptr + t19.toInt)
  let f2 : M128 := t20
  let f1 : M128 := _mm_unpacklo_ps f1 f2
  let t21 ← mo (offsets + 9)
  let t22 ← _mm_load_ss m (ptr + t21.toInt)
  let f3 : M128 := t22
  let t23 ← mo (offsets + 11)
  let t24 ← _mm_load_ss m (ptr + t23.toInt)
  let f4 : M128 := t24
  let f3 : M128 := _mm_unpacklo_ps f3 f4
  let val2 : M128 := _mm_unpacklo_ps f1 f3
  let t25 ← mo (offsets + 12)
  let t26 ← _mm_load_ss m (ptr + t25.toInt)
  let f1 : M128 := t26
  let t27 ← mo (offsets + 14)
  let t28 ← _mm_load_ss m (ptr + t27.toInt)
  let f2 : M128 := t28
  let f1 : M128 := _mm_unpacklo_ps f1 f2
  let t29 ← mo (offsets + 13)
  let t30 ← _mm_load_ss m (ptr + t29.toInt)
  let f3 : M128 := t30
  let t31 ← mo (offsets + 15)
  let t32 ← _mm_load_ss m (ptr + t31.toInt)
  let f4 : M128 := t32
  let f3 : M128 := _mm_unpacklo_ps f3 f4
  let val3 : M128 := _mm_unpacklo_ps f1 f3
  let t33 ← mo (offsets + 16)
  let t34 ← _mm_load_ss m (ptr + t33.toInt)
  let f1 : M128 := t34
  let t35 ← mo (offsets + 18)
  let t36 ← _mm_load_ss m (ptr + t35.toInt)
  let f2 : M128 := t36
  let f1 : M128 := _mm_unpacklo_ps f1 f2
  let t37 ← mo (offsets + 17)
  let t38 ← _mm_load_ss m (ptr + t37.toInt)
  let f3 : M128 := t38
  let t39 ← mo (offsets + 19)
  let t40 ← _mm_load_ss m (ptr + t39.toInt)
  let f4 : M128 := t40
  let f3 : M128 := _mm_unpacklo_ps f3 f4
  let val4 : M128 := _mm_unpacklo_ps f1 f3
  let t41 ← mo (offsets + 20)
  let t42 ← _mm_load_ss m (ptr + t41.toInt)
  let f1 : M128 := t42
  let t43 ← mo (offsets + 22)
  let t44 ← _mm_load_ss m (ptr + t43.toInt)
  let f2 : M128 := t44
  let f1 : M128 := _mm_unpacklo_ps f1 f2
  let t45 ← mo (offsets + 21)
  let t46 ← _mm_load_ss m (ptr + t45.toInt)
  let f3 : M128 := t46
  let t47 ← mo (offsets + 23)
  let t48 ← _mm_load_ss m (ptr + t47.toInt)
  let f4 : M128 := t48
  let f3 : M128 := _mm_unpacklo_ps f3 f4
  let val5 : M128 := _mm_unpacklo_ps f1 f3
  let t49 ← mo (offsets + 24)
  let t50 ← _mm_load_ss m (ptr + t49.toInt)
  let f1 : M128 := t50
  let t51 ← mo (offsets + 26)
  let t52 ← _mm_load_ss m (ptr + t51.toInt)
  let f2 : M128 := t52
  let f1 : M128 := _mm_unpacklo_ps f1 f2
  let t53 ← mo (offsets + 25)
  let t54 ← _mm_load_ss m (ptr + t53.toInt)
  let f3 : M128 := t54
  let t55 ← mo (offsets + 27)
  let t56 ← _mm_load_ss m (ptr + t55.toInt)
  let f4 : M128 := t56
  let f3 : M128 := _mm_unpacklo_ps f3 f4
  let val6 : M128 := _mm_unpacklo_ps f1 f3
  let t57 ← mo (offsets + 28)
  let t58 ← _mm_load_ss m (ptr + t57.toInt)
  let f1 : M128 := t58
  let t59 ← mo (offsets + 30)
  let t60 ← _mm_load_ss m (ptr + t59.toInt)
  let f2 : M128 := t60
  let f1 : M128 := _mm_unpacklo_ps f1 f2
  let t61 ← mo (offsets + 29)
  let t62 ← _mm_load_ss m (ptr + t61.toInt)
  let f3 : M128 := t62
  let t63 ← mo (offsets + 31)
  let t64 ← _mm_load_ss m (ptr + t63.toInt)
  let f4 : M128 := t64
  let f3 : M128 := _mm_unpacklo_ps f3 f4
  let val7 : M128 := _mm_unpacklo_ps f1 f3
  some ⟨val0, val1, val2, val3, val4, val5, val6, val7⟩

/-- `gather` (detail/short_vec_sse_float_32.hpp:425-467; sse41) -/
def gather_sse41 (E : FEnv) (m : Mem 32) (mo : Mem 32) (self : V) (ptr : Int) (offsets : Int) : Option V := do
  let t1 ← mo (offsets + 0)
  let t2 ← _mm_load_ss m (ptr + t1.toInt)
  let val0 : M128 := t2
  let t3 ← mo (offsets + 1)
  let t4 ← SHORTVEC_INSERT_PS m val0 ptr t3 (_MM_MK_INSERTPS_NDX 0 1 0)
  let val0 : M128 := t4
  let t5 ← mo (offsets + 2)
  let t6 ← SHORTVEC_INSERT_PS m val0 ptr t5 (_MM_MK_INSERTPS_NDX 0 2 0)
  let val0 : M128 := t6
  let t7 ← mo (offsets + 3)
  let t8 ← SHORTVEC_INSERT_PS m val0 ptr t7 (_MM_MK_INSERTPS_NDX 0 3 0)
  let val0 : M128 := t8
  let t9 ← mo (offsets + 4)
  let t10 ← _mm_load_ss m (ptr + t9.toInt)
  let val1 : M128 := t10
  let t11 ← mo (offsets + 5)
  let t12 ← SHORTVEC_INSERT_PS m val1 ptr t11 (_MM_MK_INSERTPS_NDX 0 1 0)
  let val1 : M128 := t12
  let t13 ← mo (offsets + 6)
  let t14 ← SHORTVEC_INSERT_PS m val1 ptr t13 (_MM_MK_INSERTPS_NDX 0 2 0)
  let val1 : M128 := t14
  let t15 ← mo (offsets + 7)
  let t16 ← SHORTVEC_INSERT_PS m val1 ptr t15 (_MM_MK_INSERTPS_NDX 0 3 0)
  let val1 : M128 := t16
  let t17 ← mo (offsets + 8)
  let t18 ← _mm_load_ss m (ptr + t17.toInt)
  let val2 : M128 := t18
  let t19 ← mo (offsets + 9)
  let t20 ← SHORTVEC_INSERT_PS m val2 ptr t19 (_MM_MK_INSERTPS_NDX 0 1 0)
  let val2 : M128 := t20
  let t21 ← mo (offsets + 10)
  let t22 ← SHORTVEC_INSERT_PS m val2 ptr t21 (_MM_MK_INSERTPS_NDX 0 2 0)
  let val2 : M128 := t22
  let t23 ← mo (offsets + 11)
  let t24 ← SHORTVEC_INSERT_PS m val2 ptr t23 (_MM_MK_INSERTPS_NDX 0 3 0)
  let val2 : M128 := t24
  let t25 ← mo (offsets + 12)
  let t26 ← _mm_load_ss m (ptr + t25.toInt)
  let val3 : M128 := t26
  let t27 ← mo (offsets + 13)
  let t28 ← SHORTVEC_INSERT_PS m val3 ptr t27 (_MM_MK_INSERTPS_NDX 0 1 0)
  let val3 : M128 := t28
  let t29 ← mo (offsets + 14)
  let t30 ← SHORTVEC_INSERT_PS m val3 ptr t29 (_MM_MK_INSERTPS_NDX 0 2 0)
  let val3 : M128 := t30
  let t31 ← mo (offsets + 15)
  let t32 ← SHORTVEC_INSERT_PS m val3 ptr t31 (_MM_MK_INSERTPS_NDX 0 3 0)
  let val3 : M128 := t32
  let t33 ← mo (offsets + 16)
  let t34 ← _mm_load_ss m (ptr + t33.toInt)
  let val4 : M128 := t34
  let t35 ← mo (offsets + 17)
  let t36 ← SHORTVEC_INSERT_PS m val4 ptr t35 (_MM_MK_INSERTPS_NDX 0 1 0)
  let val4 : M128 := t36
  let t37 ← mo (offsets + 18)
  let t38 ← SHORTVEC_INSERT_PS m val4 ptr t37 (_MM_MK_INSERTPS_NDX 0 2 0)
  let val4 : M128 := t38
  let t39 ← mo (offsets + 19)
  let t40 ← SHORTVEC_INSERT_PS m val4 ptr t39 (_MM_MK_INSERTPS_NDX 0 3 0)
  let val4 : M128 := t40
  let t41 ← mo (offsets + 20)
  let t42 ← _mm_load_ss m (ptr + t41.toInt)
  let val5 : M128 := t42
  let t43 ← mo (offsets + 21)
  let t44 ← SHORTVEC_INSERT_PS m val5 ptr t43 (_MM_MK_INSERTPS_NDX 0 1 0)
  let val5 : M128 := t44
  let t45 ← mo (offsets + 22)
  let t46 ← SHORTVEC_INSERT_PS m val5 ptr t45 (_MM_MK_INSERTPS_NDX 0 2 0)
  let val5 : M128 := t46
  let t47 ← mo (offsets + 23)
  let t48 ← SHORTVEC_INSERT_PS m val5 ptr t47 (_MM_MK_INSERTPS_NDX 0 3 0)
  let val5 : M128 := t48
  let t49 ← mo (offsets + 24)
  let t50 ← _mm_load_ss m (ptr + t49.toInt)
  let val6 : M128 := t50
  let t51 ← mo (offsets + 25)
  let t52 ← SHORTVEC_INSERT_PS m val6 ptr t51 (_MM_MK_INSERTPS_NDX 0 1 0)
  let val6 : M128 := t52
  let t53 ← mo (offsets + 26)
  let t54 ← SHORTVEC_INSERT_PS m val6 ptr t53 (_MM_MK_INSERTPS_NDX 0 2 0)
  let val6 : M128 := t54
  let t55 ← mo (offsets + 27)
  let t56 ← SHORTVEC_INSERT_PS m val6 ptr t55 (_MM_MK_INSERTPS_NDX 0 3 0)
  let val6 : M128 := t56
  let t57 ← mo (offsets + 28)
  let t58 ← _mm_load_ss m (ptr + t57.toInt)
  let val7 : M128 := t58
  let t59 ← mo (offsets + 29)
  let t60 ← SHORTVEC_INSERT_PS m val7 ptr t59 (_MM_MK_INSERTPS_NDX 0 1 0)
  let val7 : M128 := t60
  let t61 ← mo (offsets + 30)
  let t62 ← SHORTVEC_INSERT_PS m val7 ptr t61 (_MM_MK_INSERTPS_NDX 0 2 0)
  let val7 : M128 := t62
  let t63 ← mo (offsets + 31)
  let t64 ← SHORTVEC_INSERT_PS m val7 ptr t63 (_MM_MK_INSERTPS_NDX 0 3 0)
  let val7 : M128 := t64
  some ⟨val0, val1, val2, val3, val4, val5, val6, val7⟩

/-- `scatter` (detail/short_vec_sse_float_32.hpp:616-690; sse, sse2) -/
def scatter_sse (E : FEnv) (mo : Mem 32) (self : V) (ptr : Int) (offsets : Int) : Option (Writes 32) := do
  let tmp : M128 := self.val0
  let t1 ← mo (offsets + 0)
  let w2 ← _mm_store_ss (ptr + t1.toInt) tmp
  let tmp : M128 := _mm_shuffle_ps tmp tmp (_MM_SHUFFLE 0 3 2 1)
  let t3 ← mo (offsets + 1)
  let w4 ← _mm_store_ss (ptr + t3.toInt) tmp
  let tmp : M128 := _mm_shuffle_ps tmp tmp (_MM_SHUFFLE 0 3 2 1)
  let t5 ← mo (offsets + 2)
  let w6 ← _mm_store_ss (ptr + t5.toInt) tmp
  let tmp : M128 := _mm_shuffle_ps tmp tmp (_MM_SHUFFLE 0 3 2 1)
  let t7 ← mo (offsets + 3)
  let w8 ← _mm_store_ss (ptr + t7.toInt) tmp
  let tmp : M128 := self.val1
  let t9 ← mo (offsets + 4)
  let w10 ← _mm_store_ss (ptr + t9.toInt) tmp
  let tmp : M128 := _mm_shuffle_ps tmp tmp (_MM_SHUFFLE 0 3 2 1)
  let t11 ← mo (offsets + 5)
  let w12 ← _mm_store_ss (ptr + t11.toInt) tmp
  let tmp : M128 := _mm_shuffle_ps tmp tmp (_MM_SHUFFLE 0 3 2 1)
  let t13 ← mo (offsets + 6)
  let w14 ← _mm_store_ss (ptr + t13.toInt) tmp
  let tmp : M128 := _mm_shuffle_ps tmp tmp (_MM_SHUFFLE 0 3 2 1)
  let t15 ← mo (offsets + 7)
  let w16 ← _mm_store_ss (ptr + t15.toInt) tmp
  let tmp : M128 := self.val2
  let t17 ← mo (offsets + 8)
  let w18 ← _mm_store_ss (ptr + t17.toInt) tmp
  let tmp : M128 := _mm_shuffle_ps tmp tmp (_MM_SHUFFLE 0 3 2 1)
  let t19 ← mo (offsets + 9)
  let w20 ← _mm_store_ss (ptr + t19.toInt) tmp
  let tmp : M128 := _mm_shuffle_ps tmp tmp (_MM_SHUFFLE 0 3 2 1)
  let t21 ← mo (offsets + 10)
  let w22 ← _mm_store_ss (ptr + t21.toInt) tmp
  let tmp : M128 := _mm_shuffle_ps tmp tmp (_MM_SHUFFLE 0 3 2 1)
  let t23 ← mo (offsets + 11)
  let w24 ← _mm_store_ss (ptr + t23.toInt) tmp
  let tmp : M128 := self.val3
  let t25 ← mo (offsets + 12)
  let w26 ← _mm_store_ss (ptr + t25.toInt) tmp
  let tmp : M128 := _mm_shuffle_ps tmp tmp (_MM_SHUFFLE 0 3 2 1)
  let t27 ← mo (offsets + 13)
  let w28 ← _mm_store_ss (ptr + t27.toInt) tmp
  let tmp : M128 := _mm_shuffle_ps tmp tmp (_MM_SHUFFLE 0 3 2 1)
  let t29 ← mo (offsets + 14)
  let w30 ← _mm_store_ss (ptr + t29.toInt) tmp
  let tmp : M128 := _mm_shuffle_ps tmp tmp (_MM_SHUFFLE 0 3 2 1)
  let t31 ← mo (offsets + 15)
  let w32 ← _mm_store_ss (ptr + t31.toInt) tmp
  let tmp : M128 := self.val4
  let t33 ← mo (offsets + 16)
  let w34 ← _mm_store_ss (ptr + t33.toInt) tmp
  let tmp : M128 := _mm_shuffle_ps tmp tmp (_MM_SHUFFLE 0 3 2 1)
  let t35 ← mo (offsets + 17)
  let w36 ← _mm_store_ss (ptr + t35.toInt) tmp
  let tmp : M128 := _mm_shuffle_ps tmp tmp (_MM_SHUFFLE 0 3 2 1)
  let t37 ← mo (offsets + 18)
  let w38 ← _mm_store_ss (ptr + t37.toInt) tmp
  let tmp : M128 := _mm_shuffle_ps tmp tmp (_MM_SHUFFLE 0 3 2 1)
  let t39 ← mo (offsets + 19)
  let w40 ← _mm_store_ss (ptr + t39.toInt) tmp
  let tmp : M128 := self.val5
  let t41 ← mo (offsets + 20)
  let w42 ← _mm_store_ss (ptr + t41.toInt) tmp
  let tmp : M128 := _mm_shuffle_ps tmp tmp (_MM_SHUFFLE 0 3 2 1)
  let t43 ← mo (offsets + 21)
  let w44 ← _mm_store_ss (ptr + t43.toInt) tmp
  let tmp : M128 := _mm_shuffle_ps tmp tmp (_MM_SHUFFLE 0 3 2 1)
  let t45 ← mo (offsets + 22)
  let w46 ← _mm_store_ss (ptr + t45.toInt) tmp
  let tmp : M128 := _mm_shuffle_ps tmp tmp (_MM_SHUFFLE 0 3 2 1)
  let t47 ← mo (offsets + 23)
  let w48 ← _mm_store_ss (ptr + t47.toInt) tmp
  let tmp : M128 := self.val6
  let t49 ← mo (offsets + 24)
  let w50 ← _mm_store_ss (ptr + t49.toInt) tmp
  let tmp : M128 := _mm_shuffle_ps tmp tmp (_MM_SHUFFLE 0 3 2 1)
  let t51 ← mo (offsets + 25)
  let w52 ← _mm_store_ss (ptr + t51.toInt) tmp
  let tmp : M128 := _mm_shuffle_ps tmp tmp (_MM_SHUFFLE 0 3 2 1)
  let t53 ← mo (offsets + 26)
  let w54 ← _mm_store_ss (ptr + t53.toInt) tmp
  let tmp : M128 := _mm_shuffle_ps tmp tmp (_MM_SHUFFLE 0 3 2 1)
  let t55 ← mo (offsets + 27)
  let w56 ← _mm_store_ss (ptr + t55.toInt) tmp
  let tmp : M128 := self.val7
  let t57 ← mo (offsets + 28)
  let w58 ← _mm_store_ss (ptr + t57.toInt) tmp
  let tmp : M128 := _mm_shuffle_ps tmp tmp (_MM_SHUFFLE 0 3 2 1)
  let t59 ← mo (offsets + 29)
  let w60 ← _mm_store_ss (ptr + t59.toInt) tmp
  let tmp : M128 := _mm_shuffle_ps tmp tmp (_MM_SHUFFLE 0 3 2 1)
  let t61 ← mo (offsets + 30)
  let w62 ← _mm_store_ss (ptr + t61.toInt) tmp
  let tmp : M128 := _mm_shuffle_ps tmp tmp (_MM_SHUFFLE 0 3 2 1)
  let t63 ← mo (offsets + 31)
  let w64 ← _mm_store_ss (ptr + t63.toInt) tmp
  some (w2 ++ w4 ++ w6 ++ w8 ++ w10 ++ w12 ++ w14 ++ w16 ++ w18 ++ w20 ++ w22 ++ w24 ++ w26 ++ w28 ++ w30 ++ w32 ++ w34 ++ w36
      ++ w38 ++ w40 ++ w42 ++ w44 ++ w46 ++ w48 ++ w50 ++ w52 ++ w54 ++ w56 ++ w58 ++ w60 ++ w62 ++ w64)

/-- `scatter` (detail/short_vec_sse_float_32.hpp:469-544; sse41) -/
def scatter_sse41 (E : FEnv) (mo : Mem 32) (self : V) (ptr : Int) (offsets : Int) : Option (Writes 32) := do
  let r1 := (_mm_extract_ps self.val0 0)
  let r2 := (_mm_extract_ps self.val0 1)
  let r3 := (_mm_extract_ps self.val0 2)
  let r4 := (_mm_extract_ps self.val0 3)
  let t1 ← mo (offsets + 0)
  let w2 : Writes 32 := [(ptr + t1.toInt, r1)]
  let t3 ← mo (offsets + 1)
  let w4 : Writes 32 := [(ptr + t3.toInt, r2)]
  let t5 ← mo (offsets + 2)
  let w6 : Writes 32 := [(ptr + t5.toInt, r3)]
  let t7 ← mo (offsets + 3)
  let w8 : Writes 32 := [(ptr + t7.toInt, r4)]
  let r1 := (_mm_extract_ps self.val1 0)
  let r2 := (_mm_extract_ps self.val1 1)
  let r3 := (_mm_extract_ps self.val1 2)
  let r4 := (_mm_extract_ps self.val1 3)
  let t9 ← mo (offsets + 4)
  let w10 : Writes 32 := [(ptr + t9.toInt, r1)]
  let t11 ← mo (offsets + 5)
  let w12 : Writes 32 := [(ptr + t11.toInt, r2)]
  let t13 ← mo (offsets + 6)
  let w14 : Writes 32 := [(ptr + t13.toInt, r3)]
  let t15 ← mo (offsets + 7)
  let w16 : Writes 32 := [(ptr + t15.toInt, r4)]
  let r1 := (_mm_extract_ps self.val2 0)
  let r2 := (_mm_extract_ps self.val2 1)
  let r3 := (_mm_extract_ps self.val2 2)
  let r4 := (_mm_extract_ps self.val2 3)
  let t17 ← mo (offsets + 8)
  let w18 : Writes 32 := [(ptr + t17.toInt, r1)]
  let t19 ← mo (offsets + 9)
  let w20 : Writes 32 := [(ptr + t19.toInt, r2)]
  let t21 ← mo (offsets + 10)
  let w22 : Writes 32 := [(ptr + t21.toInt, r3)]
  let t23 ← mo (offsets + 11)
  let w24 : Writes 32 := [(ptr + t23.toInt, r4)]
  let r1 := (_mm_extract_ps self.val3 0)
  let r2 := (_mm_extract_ps self.val3 1)
  let r3 := (_mm_extract_ps self.val3 2)
  let r4 := (_mm_extract_ps self.val3 3)
  let t25 ← mo (offsets + 12)
  let w26 : Writes 32 := [(ptr + t25.toInt, r1)]
  let t27 ← mo (offsets + 13)
  let w28 : Writes 32 := [(ptr + t27.toInt, r2)]
  let t29 ← mo (offsets + 14)
  let w30 : Writes 32 := [(ptr + t29.toInt, r3)]
  let t31 ← mo (offsets + 15)
  let w32 : Writes 32 := [(ptr + t31.toInt, r4)]
  let r1 := (_mm_extract_ps self.val4 0)
  let r2 := (_mm_extract_ps self.val4 1)
  let r3 := (_mm_extract_ps self.val4 2)
  let r4 := (_mm_extract_ps self.val4 3)
  let t33 ← mo (offsets + 16)
  let w34 : Writes 32 := [(ptr + t33.toInt, r1)]
  let t35 ← mo (offsets + 17)
  let w36 : Writes 32 := [(ptr + t35.toInt, r2)]
  let t37 ← mo (offsets + 18)
  let w38 : Writes 32 := [(ptr + t37.toInt, r3)]
  let t39 ← mo (offsets + 19)
  let w40 : Writes 32 := [(ptr + t39.toInt, r4)]
  let r1 := (_mm_extract_ps self.val5 0)
  let r2 := (_mm_extract_ps self.val5 1)
  let r3 := (_mm_extract_ps self.val5 2)
  let r4 := (_mm_extract_ps self.val5 3)
  let t41 ← mo (offsets + 20)
  let w42 : Writes 32 := [(ptr + t41.toInt, r1)]
  let t43 ← mo (offsets + 21)
  let w44 : Writes 32 := [(ptr + t43.toInt, r2)]
  let t45 ← mo (offsets + 22)
  let w46 : Writes 32 := [(ptr + t45.toInt, r3)]
  let t47 ← mo (offsets + 23)
  let w48 : Writes 32 := [(ptr + t47.toInt, r4)]
  let r1 := (_mm_extract_ps self.val6 0)
  let r2 := (_mm_extract_ps self.val6 1)
  let r3 := (_mm_extract_ps self.val6 2)
  let r4 := (_mm_extract_ps self.val6 3)
  let t49 ← mo (offsets + 24)
  let w50 : Writes 32 := [(ptr + t49.toInt, r1)]
  let t51 ← mo (offsets + 25)
  let w52 : Writes 32 := [(ptr + t51.toInt, r2)]
  let t53 ← mo (offsets + 26)
  let w54 : Writes 32 := [(ptr + t53.toInt, r3)]
  let t55 ← mo (offsets + 27)
  let w56 : Writes 32 := [(ptr + t55.toInt, r4)]
  let r1 := (_mm_extract_ps self.val7 0)
  let r2 := (_mm_extract_ps self.val7 1)
  let r3 := (_mm_extract_ps self.val7 2)
  let r4 := (_mm_extract_ps self.val7 3)
  let t57 ← mo (offsets + 28)
  let w58 : Writes 32 := [(ptr + t57.toInt, r1)]
  let t59 ← mo (offsets + 29)
  let w60 : Writes 32 := [(ptr + t59.toInt, r2)]
  let t61 ← mo (offsets + 30)
  let w62 : Writes 32 := [(ptr + t61.toInt, r3)]
  let t63 ← mo (offsets + 31)
  let w64 : Writes 32 := [(ptr + t63.toInt, r4)]
  some (w2 ++ w4 ++ w6 ++ w8 ++ w10 ++ w12 ++ w14 ++ w16 ++ w18 ++ w20 ++ w22 ++ w24 ++ w26 ++ w28 ++ w30 ++ w32 ++ w34 ++ w36
      ++ w38 ++ w40 ++ w42 ++ w44 ++ w46 ++ w48 ++ w50 ++ w52 ++ w54 ++ w56 ++ w58 ++ w60 ++ w62 ++ w64)

/-- `blend` (detail/short_vec_sse_float_32.hpp:693-731; sse, sse2) -/
def blend_sse (E : FEnv) (self : V) (mask : Mask) (other : V) : V :=
  let val0 : M128 := _mm_or_ps (_mm_and_ps mask.val0 other.val0) (_mm_andnot_ps mask.val0 self.val0)
  let val1 : M128 := _mm_or_ps (_mm_and_ps mask.val1 other.val1) (_mm_andnot_ps mask.val1 self.val1)
  let val2 : M128 := _mm_or_ps (_mm_and_ps mask.val2 other.val2) (_mm_andnot_ps mask.val2 self.val2)
  let val3 : M128 := _mm_or_ps (_mm_and_ps mask.val3 other.val3) (_mm_andnot_ps mask.val3 self.val3)
  let val4 : M128 := _mm_or_ps (_mm_and_ps mask.val4 other.val4) (_mm_andnot_ps mask.val4 self.val4)
  let val5 : M128 := _mm_or_ps (_mm_and_ps mask.val5 other.val5) (_mm_andnot_ps mask.val5 self.val5)
  let val6 : M128 := _mm_or_ps (_mm_and_ps mask.val6 other.val6) (_mm_andnot_ps mask.val6 self.val6)
  let val7 : M128 := _mm_or_ps (_mm_and_ps mask.val7 other.val7) (_mm_andnot_ps mask.val7 self.val7)
  ⟨val0, val1, val2, val3, val4, val5, val6, val7⟩

/-- `blend` (detail/short_vec_sse_float_32.hpp:693-731; sse41) -/
def blend_sse41 (E : FEnv) (self : V) (mask : Mask) (other : V) : V :=
  let val0 : M128 := _mm_blendv_ps self.val0 other.val0 mask.val0
  let val1 : M128 := _mm_blendv_ps self.val1 other.val1 mask.val1
  let val2 : M128 := _mm_blendv_ps self.val2 other.val2 mask.val2
  let val3 : M128 := _mm_blendv_ps self.val3 other.val3 mask.val3
  let val4 : M128 := _mm_blendv_ps self.val4 other.val4 mask.val4
  let val5 : M128 := _mm_blendv_ps self.val5 other.val5 mask.val5
  let val6 : M128 := _mm_blendv_ps self.val6 other.val6 mask.val6
  let val7 : M128 := _mm_blendv_ps self.val7 other.val7 mask.val7
  ⟨val0, val1, val2, val3, val4, val5, val6, val7⟩

/-- `operator<<`, free function (detail/short_vec_sse_float_32.hpp:737-741) -/
def opStore (E : FEnv) (data : Int) (vec : V) : Option (Writes 32) := do
  let w1 ← store E vec data
  some w1

/-- `operator/=` of `sqrt_reference` (detail/short_vec_sse_float_32.hpp:774-785) -/
def opDivAssignSqrt (E : FEnv) (self : V) (other : SqrtRef) : V :=
  let val0 : M128 := _mm_mul_ps E self.val0 (_mm_rsqrt_ps E other.vec.val0)
  let val1 : M128 := _mm_mul_ps E self.val1 (_mm_rsqrt_ps E other.vec.val1)
  let val2 : M128 := _mm_mul_ps E self.val2 (_mm_rsqrt_ps E other.vec.val2)
  let val3 : M128 := _mm_mul_ps E self.val3 (_mm_rsqrt_ps E other.vec.val3)
  let val4 : M128 := _mm_mul_ps E self.val4 (_mm_rsqrt_ps E other.vec.val4)
  let val5 : M128 := _mm_mul_ps E self.val5 (_mm_rsqrt_ps E other.vec.val5)
  let val6 : M128 := _mm_mul_ps E self.val6 (_mm_rsqrt_ps E other.vec.val6)
  let val7 : M128 := _mm_mul_ps E self.val7 (_mm_rsqrt_ps E other.vec.val7)
  ⟨val0, val1, val2, val3, val4, val5, val6, val7⟩

/-- `operator/` of `sqrt_reference` (detail/short_vec_sse_float_32.hpp:787-799) -/
def opDivSqrt (E : FEnv) (self : V) (other : SqrtRef) : V :=
  ofRegs E (_mm_mul_ps E self.val0 (_mm_rsqrt_ps E other.vec.val0)) (_mm_mul_ps E self.val1 (_mm_rsqrt_ps E other.vec.val1))
      (_mm_mul_ps E self.val2 (_mm_rsqrt_ps E other.vec.val2)) (_mm_mul_ps E self.val3 (_mm_rsqrt_ps E other.vec.val3))
      (_mm_mul_ps E self.val4 (_mm_rsqrt_ps E other.vec.val4)) (_mm_mul_ps E self.val5 (_mm_rsqrt_ps E other.vec.val5))
      (_mm_mul_ps E self.val6 (_mm_rsqrt_ps E other.vec.val6)) (_mm_mul_ps E self.val7 (_mm_rsqrt_ps E other.vec.val7))

/-- `sqrt`, free function (detail/short_vec_sse_float_32.hpp:801-805) -/
def sqrtFn (E : FEnv) (vec : V) : SqrtRef := SqrtRef.mk vec

/-- `operator<<`, free function (detail/short_vec_sse_float_32.hpp:807-830) -/
def print (E : FEnv) (vec : V) : List (Out 32) :=
  [.s "[", .v vec.val0.x0, .s ", ", .v vec.val0.x1, .s ", ", .v vec.val0.x2, .s ", ", .v vec.val0.x3, .s ", ", .v vec.val1.x0,
      .s ", ", .v vec.val1.x1, .s ", ", .v vec.val1.x2, .s ", ", .v vec.val1.x3, .s ", ", .v vec.val2.x0, .s ", ", .v
      vec.val2.x1, .s ", ", .v vec.val2.x2, .s ", ", .v vec.val2.x3, .s ", ", .v vec.val3.x0, .s ", ", .v vec.val3.x1, .s ", ",
      .v vec.val3.x2, .s ", ", .v vec.val3.x3, .s ", ", .v vec.val4.x0, .s ", ", .v vec.val4.x1, .s ", ", .v vec.val4.x2, .s
      ", ", .v vec.val4.x3, .s ", ", .v vec.val5.x0, .s ", ", .v vec.val5.x1, .s ", ", .v vec.val5.x2, .s ", ", .v vec.val5.x3,
      .s ", ", .v vec.val6.x0, .s ", ", .v vec.val6.x1, .s ", ", .v vec.val6.x2, .s ", ", .v vec.val6.x3, .s ", ", .v
      vec.val7.x0, .s ", ", .v vec.val7.x1, .s ", ", .v vec.val7.x2, .s ", ", .v vec.val7.x3, .s "]"]

end LFA.SV.SseFloat32
