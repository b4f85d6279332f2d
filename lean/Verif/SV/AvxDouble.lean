/-
  Generated by tools/sv_gen.py from detail/short_vec_avx_double_*.hpp.
-/
import Verif.SV.Base
set_option linter.unusedVariables false
set_option autoImplicit false

namespace LFA.SV.AvxDouble4

/-- members of `short_vec<double, 4>` (detail/short_vec_avx_double_4.hpp:49) -/
structure V where
  val : M256d

/-- lanes, from low to high -/
def V.lanes (v : V) : List (BitVec 64) := SV.lanes v.val

/-- `mask_type` -/
abbrev Mask := V

/-- constructor (detail/short_vec_avx_double_4.hpp:61-64) -/
def bcast (E : FEnv) (data : BitVec 64) : V := ⟨_mm256_broadcast_sd data⟩

/-- constructor (detail/short_vec_avx_double_4.hpp:72-75) -/
def ofRegs (E : FEnv) (val : M256d) : V := ⟨val⟩

/-- `load` (detail/short_vec_avx_double_4.hpp:207-211) -/
def load (E : FEnv) (m : Mem 64) (self : V) (data : Int) : Option V := do
  let t1 ← _mm256_loadu_pd m data
  let val : M256d := t1
  some ⟨val⟩

/-- `store` (detail/short_vec_avx_double_4.hpp:220-224) -/
def store (E : FEnv) (self : V) (data : Int) : Option (Writes 64) := do
  let w1 ← _mm256_storeu_pd (data + 0) self.val
  some w1

/-- `sqrt` (detail/short_vec_avx_double_4.hpp:200-205) -/
def sqrt (E : FEnv) (self : V) : V := ofRegs E (_mm256_sqrt_pd E self.val)

/-- constructor (detail/short_vec_avx_double_4.hpp:66-70) -/
def ofPtr (E : FEnv) (m : Mem 64) (data : Int) : Option V := do
  let v1 ← load E m ⟨(uninit : M256d)⟩ data
  some ⟨v1.val⟩

/-- constructor (detail/short_vec_avx_double_4.hpp:78-83) -/
def ofList (E : FEnv) (m : Mem 64) (il : Int) : Option V := do
  let v1 ← load E m ⟨(uninit : M256d)⟩ il
  some ⟨v1.val⟩

/-- `any` (detail/short_vec_avx_double_4.hpp:86-92) -/
def any (E : FEnv) (self : V) : Bool :=
  (0 : BitVec 32) == (_mm256_testz_si256 (_mm256_castpd_si256 self.val) (_mm256_castpd_si256 self.val))

/-- `operator[]` (detail/short_vec_avx_double_4.hpp:94-112) -/
def opIndex (E : FEnv) (self : V) (i : BitVec 32) : BitVec 64 :=
  let buf : M128d := (uninit : M128d)
  let buf : M128d := if BitVec.slt i (2 : BitVec 32) then _mm256_extractf128_pd self.val 0 else _mm256_extractf128_pd self.val 1
  let i : BitVec 32 := i &&& (1 : BitVec 32)
  if i == (0 : BitVec 32) then
    _mm_cvtsd_f64 buf
  else
    let buf : M128d := _mm_shuffle_pd buf buf 1
    _mm_cvtsd_f64 buf

/-- `operator-=` (detail/short_vec_avx_double_4.hpp:114-118) -/
def opSubAssign (E : FEnv) (self : V) (other : V) : V :=
  let val : M256d := _mm256_sub_pd E self.val other.val
  ⟨val⟩

/-- `operator-` (detail/short_vec_avx_double_4.hpp:120-125) -/
def opSub (E : FEnv) (self : V) (other : V) : V := ofRegs E (_mm256_sub_pd E self.val other.val)

/-- `operator+=` (detail/short_vec_avx_double_4.hpp:127-131) -/
def opAddAssign (E : FEnv) (self : V) (other : V) : V :=
  let val : M256d := _mm256_add_pd E self.val other.val
  ⟨val⟩

/-- `operator+` (detail/short_vec_avx_double_4.hpp:133-137) -/
def opAdd (E : FEnv) (self : V) (other : V) : V := ofRegs E (_mm256_add_pd E self.val other.val)

/-- `operator*=` (detail/short_vec_avx_double_4.hpp:139-143) -/
def opMulAssign (E : FEnv) (self : V) (other : V) : V :=
  let val : M256d := _mm256_mul_pd E self.val other.val
  ⟨val⟩

/-- `operator*` (detail/short_vec_avx_double_4.hpp:145-150) -/
def opMul (E : FEnv) (self : V) (other : V) : V := ofRegs E (_mm256_mul_pd E self.val other.val)

/-- `operator/=` (detail/short_vec_avx_double_4.hpp:152-156) -/
def opDivAssign (E : FEnv) (self : V) (other : V) : V :=
  let val : M256d := _mm256_div_pd E self.val other.val
  ⟨val⟩

/-- `operator/` (detail/short_vec_avx_double_4.hpp:158-163) -/
def opDiv (E : FEnv) (self : V) (other : V) : V := ofRegs E (_mm256_div_pd E self.val other.val)

/-- `operator<` (detail/short_vec_avx_double_4.hpp:165-170) -/
def opLt (E : FEnv) (self : V) (other : V) : V := ofRegs E (_mm256_cmp_pd E self.val other.val _CMP_LT_OS)

/-- `operator<=` (detail/short_vec_avx_double_4.hpp:172-177) -/
def opLe (E : FEnv) (self : V) (other : V) : V := ofRegs E (_mm256_cmp_pd E self.val other.val _CMP_LE_OS)

/-- `operator==` (detail/short_vec_avx_double_4.hpp:179-184) -/
def opEq (E : FEnv) (self : V) (other : V) : V := ofRegs E (_mm256_cmp_pd E self.val other.val _CMP_EQ_OQ)

/-- `operator>` (detail/short_vec_avx_double_4.hpp:186-191) -/
def opGt (E : FEnv) (self : V) (other : V) : V := ofRegs E (_mm256_cmp_pd E self.val other.val _CMP_GT_OS)

/-- `operator>=` (detail/short_vec_avx_double_4.hpp:193-198) -/
def opGe (E : FEnv) (self : V) (other : V) : V := ofRegs E (_mm256_cmp_pd E self.val other.val _CMP_GE_OS)

/-- `load_aligned` (detail/short_vec_avx_double_4.hpp:213-218) -/
def load_aligned (E : FEnv) (m : Mem 64) (self : V) (data : Int) : Option V := do
  assertAligned 8 data 32
  let t1 ← _mm256_load_pd m data
  let val : M256d := t1
  some ⟨val⟩

/-- `store_aligned` (detail/short_vec_avx_double_4.hpp:226-231) -/
def store_aligned (E : FEnv) (self : V) (data : Int) : Option (Writes 64) := do
  assertAligned 8 data 32
  let w1 ← _mm256_store_pd data self.val
  some w1

/-- `store_nt` (detail/short_vec_avx_double_4.hpp:233-238) -/
def store_nt (E : FEnv) (self : V) (data : Int) : Option (Writes 64) := do
  assertAligned 8 data 32
  let w1 ← _mm256_stream_pd data self.val
  some w1

/-- `gather` (detail/short_vec_avx_double_4.hpp:241-247; avx512f, avx2) -/
def gather_avx512f (E : FEnv) (m : Mem 64) (mo : Mem 32) (self : V) (ptr : Int) (offsets : Int) : Option V := do
  let indices : M128i := (uninit : M128i)
  let t1 ← _mm_loadu_si128 mo offsets
  let indices : M128i := t1
  let t2 ← _mm256_i32gather_pd m ptr indices 8
  let val : M256d := t2
  some ⟨val⟩

/-- `gather` (detail/short_vec_avx_double_4.hpp:249-257; avx) -/
def gather_avx (E : FEnv) (m : Mem 64) (mo : Mem 32) (self : V) (ptr : Int) (offsets : Int) : Option V := do
  let t1 ← mo (offsets + 3)
  let t2 ← m (ptr + t1.toInt)
  let t3 ← mo (offsets + 2)
  let t4 ← m (ptr + t3.toInt)
  let t5 ← mo (offsets + 1)
  let t6 ← m (ptr + t5.toInt)
  let t7 ← mo (offsets + 0)
  let t8 ← m (ptr + t7.toInt)
  let val : M256d := _mm256_set_pd t2 t4 t6 t8
  some ⟨val⟩

/-- `scatter` (detail/short_vec_avx_double_4.hpp:260-270) -/
def scatter (E : FEnv) (mo : Mem 32) (self : V) (ptr : Int) (offsets : Int) : Option (Writes 64) := do
  let tmp : M128d := (uninit : M128d)
  let tmp : M128d := _mm256_extractf128_pd self.val 0
  let t1 ← mo (offsets + 0)
  let w2 ← _mm_storel_pd (ptr + t1.toInt) tmp
  let t3 ← mo (offsets + 1)
  let w4 ← _mm_storeh_pd (ptr + t3.toInt) tmp
  let tmp : M128d := _mm256_extractf128_pd self.val 1
  let t5 ← mo (offsets + 2)
  let w6 ← _mm_storel_pd (ptr + t5.toInt) tmp
  let t7 ← mo (offsets + 3)
  let w8 ← _mm_storeh_pd (ptr + t7.toInt) tmp
  some (w2 ++ w4 ++ w6 ++ w8)

/-- `blend` (detail/short_vec_avx_double_4.hpp:272-276) -/
def blend (E : FEnv) (self : V) (mask : Mask) (other : V) : V :=
  let val : M256d := _mm256_blendv_pd self.val other.val mask.val
  ⟨val⟩

/-- `operator<<`, free function (detail/short_vec_avx_double_4.hpp:282-286) -/
def opStore (E : FEnv) (data : Int) (vec : V) : Option (Writes 64) := do
  let w1 ← store E vec data
  some w1

/-- `sqrt`, free function (detail/short_vec_avx_double_4.hpp:292-296) -/
def sqrtFn (E : FEnv) (vec : V) : V := sqrt E vec

/-- `operator<<`, free function (detail/short_vec_avx_double_4.hpp:298-308) -/
def print (E : FEnv) (vec : V) : List (Out 64) :=
  [.s "[", .v vec.val.x0.x0, .s ", ", .v vec.val.x0.x1, .s ", ", .v vec.val.x1.x0, .s ", ", .v vec.val.x1.x1, .s "]"]

end LFA.SV.AvxDouble4

namespace LFA.SV.AvxDouble8

/-- members of `short_vec<double, 8>` (detail/short_vec_avx_double_8.hpp:47) -/
structure V where
  val0 : M256d
  val1 : M256d

/-- lanes, from low to high -/
def V.lanes (v : V) : List (BitVec 64) := SV.lanes v.val0 ++ (SV.lanes v.val1)

/-- `mask_type` -/
abbrev Mask := V

/-- constructor (detail/short_vec_avx_double_8.hpp:59-63) -/
def bcast (E : FEnv) (data : BitVec 64) : V := ⟨_mm256_broadcast_sd data, _mm256_broadcast_sd data⟩

/-- constructor (detail/short_vec_avx_double_8.hpp:71-77) -/
def ofRegs (E : FEnv) (val1 : M256d) (val2 : M256d) : V := ⟨val1, val2⟩

/-- `load` (detail/short_vec_avx_double_8.hpp:228-233) -/
def load (E : FEnv) (m : Mem 64) (self : V) (data : Int) : Option V := do
  let t1 ← _mm256_loadu_pd m (data + 0)
  let val0 : M256d := t1
  let t2 ← _mm256_loadu_pd m (data + 4)
  let val1 : M256d := t2
  some ⟨val0, val1⟩

/-- `store` (detail/short_vec_avx_double_8.hpp:243-248) -/
def store (E : FEnv) (self : V) (data : Int) : Option (Writes 64) := do
  let w1 ← _mm256_storeu_pd (data + 0) self.val0
  let w2 ← _mm256_storeu_pd (data + 4) self.val1
  some (w1 ++ w2)

/-- `sqrt` (detail/short_vec_avx_double_8.hpp:220-226) -/
def sqrt (E : FEnv) (self : V) : V := ofRegs E (_mm256_sqrt_pd E self.val0) (_mm256_sqrt_pd E self.val1)

/-- constructor (detail/short_vec_avx_double_8.hpp:65-69) -/
def ofPtr (E : FEnv) (m : Mem 64) (data : Int) : Option V := do
  let v1 ← load E m ⟨(uninit : M256d), (uninit : M256d)⟩ data
  some ⟨v1.val0, v1.val1⟩

/-- constructor (detail/short_vec_avx_double_8.hpp:80-85) -/
def ofList (E : FEnv) (m : Mem 64) (il : Int) : Option V := do
  let v1 ← load E m ⟨(uninit : M256d), (uninit : M256d)⟩ il
  some ⟨v1.val0, v1.val1⟩

/-- `any` (detail/short_vec_avx_double_8.hpp:88-95) -/
def any (E : FEnv) (self : V) : Bool :=
  let buf0 : M256d := _mm256_or_pd self.val0 self.val1
  (0 : BitVec 32) == (_mm256_testz_si256 (_mm256_castpd_si256 buf0) (_mm256_castpd_si256 buf0))

/-- `operator[]` (detail/short_vec_avx_double_8.hpp:97-118) -/
def opIndex (E : FEnv) (self : V) (i : BitVec 32) : Option (BitVec 64) := do
  let t1 ← dyn [self.val0, self.val1] (i.sshiftRight 2)
  let buf0 : M256d := t1
  let i : BitVec 32 := i &&& (3 : BitVec 32)
  let buf1 : M128d := (uninit : M128d)
  let buf1 : M128d := if BitVec.slt i (2 : BitVec 32) then _mm256_extractf128_pd buf0 0 else _mm256_extractf128_pd buf0 1
  let i : BitVec 32 := i &&& (1 : BitVec 32)
  if i == (0 : BitVec 32) then do
    some (_mm_cvtsd_f64 buf1)
  else do
    let buf1 : M128d := _mm_shuffle_pd buf1 buf1 1
    some (_mm_cvtsd_f64 buf1)

/-- `operator-=` (detail/short_vec_avx_double_8.hpp:120-125) -/
def opSubAssign (E : FEnv) (self : V) (other : V) : V :=
  let val0 : M256d := _mm256_sub_pd E self.val0 other.val0
  let val1 : M256d := _mm256_sub_pd E self.val1 other.val1
  ⟨val0, val1⟩

/-- `operator-` (detail/short_vec_avx_double_8.hpp:127-133) -/
def opSub (E : FEnv) (self : V) (other : V) : V :=
  ofRegs E (_mm256_sub_pd E self.val0 other.val0) (_mm256_sub_pd E self.val1 other.val1)

/-- `operator+=` (detail/short_vec_avx_double_8.hpp:135-140) -/
def opAddAssign (E : FEnv) (self : V) (other : V) : V :=
  let val0 : M256d := _mm256_add_pd E self.val0 other.val0
  let val1 : M256d := _mm256_add_pd E self.val1 other.val1
  ⟨val0, val1⟩

/-- `operator+` (detail/short_vec_avx_double_8.hpp:142-148) -/
def opAdd (E : FEnv) (self : V) (other : V) : V :=
  ofRegs E (_mm256_add_pd E self.val0 other.val0) (_mm256_add_pd E self.val1 other.val1)

/-- `operator*=` (detail/short_vec_avx_double_8.hpp:150-155) -/
def opMulAssign (E : FEnv) (self : V) (other : V) : V :=
  let val0 : M256d := _mm256_mul_pd E self.val0 other.val0
  let val1 : M256d := _mm256_mul_pd E self.val1 other.val1
  ⟨val0, val1⟩

/-- `operator*` (detail/short_vec_avx_double_8.hpp:157-163) -/
def opMul (E : FEnv) (self : V) (other : V) : V :=
  ofRegs E (_mm256_mul_pd E self.val0 other.val0) (_mm256_mul_pd E self.val1 other.val1)

/-- `operator/=` (detail/short_vec_avx_double_8.hpp:165-170) -/
def opDivAssign (E : FEnv) (self : V) (other : V) : V :=
  let val0 : M256d := _mm256_div_pd E self.val0 other.val0
  let val1 : M256d := _mm256_div_pd E self.val1 other.val1
  ⟨val0, val1⟩

/-- `operator/` (detail/short_vec_avx_double_8.hpp:172-178) -/
def opDiv (E : FEnv) (self : V) (other : V) : V :=
  ofRegs E (_mm256_div_pd E self.val0 other.val0) (_mm256_div_pd E self.val1 other.val1)

/-- `operator<` (detail/short_vec_avx_double_8.hpp:180-186) -/
def opLt (E : FEnv) (self : V) (other : V) : V :=
  ofRegs E (_mm256_cmp_pd E self.val0 other.val0 _CMP_LT_OS) (_mm256_cmp_pd E self.val1 other.val1 _CMP_LT_OS)

/-- `operator<=` (detail/short_vec_avx_double_8.hpp:188-194) -/
def opLe (E : FEnv) (self : V) (other : V) : V :=
  ofRegs E (_mm256_cmp_pd E self.val0 other.val0 _CMP_LE_OS) (_mm256_cmp_pd E self.val1 other.val1 _CMP_LE_OS)

/-- `operator==` (detail/short_vec_avx_double_8.hpp:196-202) -/
def opEq (E : FEnv) (self : V) (other : V) : V :=
  ofRegs E (_mm256_cmp_pd E self.val0 other.val0 _CMP_EQ_OQ) (_mm256_cmp_pd E self.val1 other.val1 _CMP_EQ_OQ)

/-- `operator>` (detail/short_vec_avx_double_8.hpp:204-210) -/
def opGt (E : FEnv) (self : V) (other : V) : V :=
  ofRegs E (_mm256_cmp_pd E self.val0 other.val0 _CMP_GT_OS) (_mm256_cmp_pd E self.val1 other.val1 _CMP_GT_OS)

/-- `operator>=` (detail/short_vec_avx_double_8.hpp:212-218) -/
def opGe (E : FEnv) (self : V) (other : V) : V :=
  ofRegs E (_mm256_cmp_pd E self.val0 other.val0 _CMP_GE_OS) (_mm256_cmp_pd E self.val1 other.val1 _CMP_GE_OS)

/-- `load_aligned` (detail/short_vec_avx_double_8.hpp:235-241) -/
def load_aligned (E : FEnv) (m : Mem 64) (self : V) (data : Int) : Option V := do
  assertAligned 8 data 32
  let t1 ← _mm256_load_pd m (data + 0)
  let val0 : M256d := t1
  let t2 ← _mm256_load_pd m (data + 4)
  let val1 : M256d := t2
  some ⟨val0, val1⟩

/-- `store_aligned` (detail/short_vec_avx_double_8.hpp:250-256) -/
def store_aligned (E : FEnv) (self : V) (data : Int) : Option (Writes 64) := do
  assertAligned 8 data 32
  let w1 ← _mm256_store_pd (data + 0) self.val0
  let w2 ← _mm256_store_pd (data + 4) self.val1
  some (w1 ++ w2)

/-- `store_nt` (detail/short_vec_avx_double_8.hpp:258-264) -/
def store_nt (E : FEnv) (self : V) (data : Int) : Option (Writes 64) := do
  assertAligned 8 data 32
  let w1 ← _mm256_stream_pd (data + 0) self.val0
  let w2 ← _mm256_stream_pd (data + 4) self.val1
  some (w1 ++ w2)

/-- `gather` (detail/short_vec_avx_double_8.hpp:277-291; avx) -/
def gather_avx (E : FEnv) (m : Mem 64) (mo : Mem 32) (self : V) (ptr : Int) (offsets : Int) : Option V := do
  let t1 ← mo (offsets + 3)
  let t2 ← m (ptr + t1.toInt)
  let t3 ← mo (offsets + 2)
  let t4 ← m (ptr + t3.toInt)
  let t5 ← mo (offsets + 1)
  let t6 ← m (ptr + t5.toInt)
  let t7 ← mo (offsets + 0)
  let t8 ← m (ptr + t7.toInt)
  let val0 : M256d := _mm256_set_pd t2 t4 t6 t8
  let t9 ← mo (offsets + 7)
  let t10 ← m (ptr + t9.toInt)
  let t11 ← mo (offsets + 6)
  let t12 ← m (ptr + t11.toInt)
  let t13 ← mo (offsets + 5)
  let t14 ← m (ptr + t13.toInt)
  let t15 ← mo (offsets + 4)
  let t16 ← m (ptr + t15.toInt)
  let val1 : M256d := _mm256_set_pd t10 t12 t14 t16
  some ⟨val0, val1⟩

/-- `gather` (detail/short_vec_avx_double_8.hpp:267-275; avx2) -/
def gather_avx2 (E : FEnv) (m : Mem 64) (mo : Mem 32) (self : V) (ptr : Int) (offsets : Int) : Option V := do
  let indices : M128i := (uninit : M128i)
  let t1 ← _mm_loadu_si128 mo offsets
  let indices : M128i := t1
  let t2 ← _mm256_i32gather_pd m ptr indices 8
  let val0 : M256d := t2
  let t3 ← _mm_loadu_si128 mo (offsets + 4)
  let indices : M128i := t3
  let t4 ← _mm256_i32gather_pd m ptr indices 8
  let val1 : M256d := t4
  some ⟨val0, val1⟩

/-- `scatter` (detail/short_vec_avx_double_8.hpp:294-310) -/
def scatter (E : FEnv) (mo : Mem 32) (self : V) (ptr : Int) (offsets : Int) : Option (Writes 64) := do
  let tmp : M128d := (uninit : M128d)
  let tmp : M128d := _mm256_extractf128_pd self.val0 0
  let t1 ← mo (offsets + 0)
  let w2 ← _mm_storel_pd (ptr + t1.toInt) tmp
  let t3 ← mo (offsets + 1)
  let w4 ← _mm_storeh_pd (ptr + t3.toInt) tmp
  let tmp : M128d := _mm256_extractf128_pd self.val0 1
  let t5 ← mo (offsets + 2)
  let w6 ← _mm_storel_pd (ptr + t5.toInt) tmp
  let t7 ← mo (offsets + 3)
  let w8 ← _mm_storeh_pd (ptr + t7.toInt) tmp
  let tmp : M128d := _mm256_extractf128_pd self.val1 0
  let t9 ← mo (offsets + 4)
  let w10 ← _mm_storel_pd (ptr + t9.toInt) tmp
  let t11 ← mo (offsets + 5)
  let w12 ← _mm_storeh_pd (ptr + t11.toInt) tmp
  let tmp : M128d := _mm256_extractf128_pd self.val1 1
  let t13 ← mo (offsets + 6)
  let w14 ← _mm_storel_pd (ptr + t13.toInt) tmp
  let t15 ← mo (offsets + 7)
  let w16 ← _mm_storeh_pd (ptr + t15.toInt) tmp
  some (w2 ++ w4 ++ w6 ++ w8 ++ w10 ++ w12 ++ w14 ++ w16)

/-- `blend` (detail/short_vec_avx_double_8.hpp:312-317) -/
def blend (E : FEnv) (self : V) (mask : Mask) (other : V) : V :=
  let val0 : M256d := _mm256_blendv_pd self.val0 other.val0 mask.val0
  let val1 : M256d := _mm256_blendv_pd self.val1 other.val1 mask.val1
  ⟨val0, val1⟩

/-- `operator<<`, free function (detail/short_vec_avx_double_8.hpp:323-327) -/
def opStore (E : FEnv) (data : Int) (vec : V) : Option (Writes 64) := do
  let w1 ← store E vec data
  some w1

/-- `sqrt`, free function (detail/short_vec_avx_double_8.hpp:333-337) -/
def sqrtFn (E : FEnv) (vec : V) : V := sqrt E vec

/-- `operator<<`, free function (detail/short_vec_avx_double_8.hpp:339-351) -/
def print (E : FEnv) (vec : V) : List (Out 64) :=
  [.s "[", .v vec.val0.x0.x0, .s ", ", .v vec.val0.x0.x1, .s ", ", .v vec.val0.x1.x0, .s ", ", .v vec.val0.x1.x1, .s ", ", .v
      vec.val1.x0.x0, .s ", ", .v vec.val1.x0.x1, .s ", ", .v vec.val1.x1.x0, .s ", ", .v vec.val1.x1.x1, .s "]"]

end LFA.SV.AvxDouble8

namespace LFA.SV.AvxDouble16

/-- members of `short_vec<double, 16>` (detail/short_vec_avx_double_16.hpp:47) -/
structure V where
  val0 : M256d
  val1 : M256d
  val2 : M256d
  val3 : M256d

/-- lanes, from low to high -/
def V.lanes (v : V) : List (BitVec 64) := SV.lanes v.val0 ++ (SV.lanes v.val1 ++ (SV.lanes v.val2 ++ (SV.lanes v.val3)))

/-- `mask_type` -/
abbrev Mask := V

/-- constructor (detail/short_vec_avx_double_16.hpp:59-65) -/
def bcast (E : FEnv) (data : BitVec 64) : V :=
  ⟨_mm256_broadcast_sd data, _mm256_broadcast_sd data, _mm256_broadcast_sd data, _mm256_broadcast_sd data⟩

/-- constructor (detail/short_vec_avx_double_16.hpp:73-83) -/
def ofRegs (E : FEnv) (val1 : M256d) (val2 : M256d) (val3 : M256d) (val4 : M256d) : V := ⟨val1, val2, val3, val4⟩

/-- `load` (detail/short_vec_avx_double_16.hpp:264-271) -/
def load (E : FEnv) (m : Mem 64) (self : V) (data : Int) : Option V := do
  let t1 ← _mm256_loadu_pd m (data + 0)
  let val0 : M256d := t1
  let t2 ← _mm256_loadu_pd m (data + 4)
  let val1 : M256d := t2
  let t3 ← _mm256_loadu_pd m (data + 8)
  let val2 : M256d := t3
  let t4 ← _mm256_loadu_pd m (data + 12)
  let val3 : M256d := t4
  some ⟨val0, val1, val2, val3⟩

/-- `store` (detail/short_vec_avx_double_16.hpp:283-290) -/
def store (E : FEnv) (self : V) (data : Int) : Option (Writes 64) := do
  let w1 ← _mm256_storeu_pd (data + 0) self.val0
  let w2 ← _mm256_storeu_pd (data + 4) self.val1
  let w3 ← _mm256_storeu_pd (data + 8) self.val2
  let w4 ← _mm256_storeu_pd (data + 12) self.val3
  some (w1 ++ w2 ++ w3 ++ w4)

/-- `sqrt` (detail/short_vec_avx_double_16.hpp:254-262) -/
def sqrt (E : FEnv) (self : V) : V :=
  ofRegs E (_mm256_sqrt_pd E self.val0) (_mm256_sqrt_pd E self.val1) (_mm256_sqrt_pd E self.val2) (_mm256_sqrt_pd E self.val3)

/-- constructor (detail/short_vec_avx_double_16.hpp:67-71) -/
def ofPtr (E : FEnv) (m : Mem 64) (data : Int) : Option V := do
  let v1 ← load E m ⟨(uninit : M256d), (uninit : M256d), (uninit : M256d), (uninit : M256d)⟩ data
  some ⟨v1.val0, v1.val1, v1.val2, v1.val3⟩

/-- constructor (detail/short_vec_avx_double_16.hpp:86-91) -/
def ofList (E : FEnv) (m : Mem 64) (il : Int) : Option V := do
  let v1 ← load E m ⟨(uninit : M256d), (uninit : M256d), (uninit : M256d), (uninit : M256d)⟩ il
  some ⟨v1.val0, v1.val1, v1.val2, v1.val3⟩

/-- `any` (detail/short_vec_avx_double_16.hpp:94-103) -/
def any (E : FEnv) (self : V) : Bool :=
  let buf0 : M256d := _mm256_or_pd (_mm256_or_pd self.val0 self.val1) (_mm256_or_pd self.val2 self.val3)
  (0 : BitVec 32) == (_mm256_testz_si256 (_mm256_castpd_si256 buf0) (_mm256_castpd_si256 buf0))

/-- `operator[]` (detail/short_vec_avx_double_16.hpp:105-126) -/
def opIndex (E : FEnv) (self : V) (i : BitVec 32) : Option (BitVec 64) := do
  let t1 ← dyn [self.val0, self.val1, self.val2, self.val3] (i.sshiftRight 2)
  let buf0 : M256d := t1
  let i : BitVec 32 := i &&& (3 : BitVec 32)
  let buf1 : M128d := (uninit : M128d)
  let buf1 : M128d := if BitVec.slt i (2 : BitVec 32) then _mm256_extractf128_pd buf0 0 else _mm256_extractf128_pd buf0 1
  let i : BitVec 32 := i &&& (1 : BitVec 32)
  if i == (0 : BitVec 32) then do
    some (_mm_cvtsd_f64 buf1)
  else do
    let buf1 : M128d := _mm_shuffle_pd buf1 buf1 1
    some (_mm_cvtsd_f64 buf1)

/-- `operator-=` (detail/short_vec_avx_double_16.hpp:128-135) -/
def opSubAssign (E : FEnv) (self : V) (other : V) : V :=
  let val0 : M256d := _mm256_sub_pd E self.val0 other.val0
  let val1 : M256d := _mm256_sub_pd E self.val1 other.val1
  let val2 : M256d := _mm256_sub_pd E self.val2 other.val2
  let val3 : M256d := _mm256_sub_pd E self.val3 other.val3
  ⟨val0, val1, val2, val3⟩

/-- `operator-` (detail/short_vec_avx_double_16.hpp:137-145) -/
def opSub (E : FEnv) (self : V) (other : V) : V :=
  ofRegs E (_mm256_sub_pd E self.val0 other.val0) (_mm256_sub_pd E self.val1 other.val1) (_mm256_sub_pd E self.val2 other.val2)
      (_mm256_sub_pd E self.val3 other.val3)

/-- `operator+=` (detail/short_vec_avx_double_16.hpp:147-154) -/
def opAddAssign (E : FEnv) (self : V) (other : V) : V :=
  let val0 : M256d := _mm256_add_pd E self.val0 other.val0
  let val1 : M256d := _mm256_add_pd E self.val1 other.val1
  let val2 : M256d := _mm256_add_pd E self.val2 other.val2
  let val3 : M256d := _mm256_add_pd E self.val3 other.val3
  ⟨val0, val1, val2, val3⟩

/-- `operator+` (detail/short_vec_avx_double_16.hpp:156-164) -/
def opAdd (E : FEnv) (self : V) (other : V) : V :=
  ofRegs E (_mm256_add_pd E self.val0 other.val0) (_mm256_add_pd E self.val1 other.val1) (_mm256_add_pd E self.val2 other.val2)
      (_mm256_add_pd E self.val3 other.val3)

/-- `operator*=` (detail/short_vec_avx_double_16.hpp:166-173) -/
def opMulAssign (E : FEnv) (self : V) (other : V) : V :=
  let val0 : M256d := _mm256_mul_pd E self.val0 other.val0
  let val1 : M256d := _mm256_mul_pd E self.val1 other.val1
  let val2 : M256d := _mm256_mul_pd E self.val2 other.val2
  let val3 : M256d := _mm256_mul_pd E self.val3 other.val3
  ⟨val0, val1, val2, val3⟩

/-- `operator*` (detail/short_vec_avx_double_16.hpp:175-183) -/
def opMul (E : FEnv) (self : V) (other : V) : V :=
  ofRegs E (_mm256_mul_pd E self.val0 other.val0) (_mm256_mul_pd E self.val1 other.val1) (_mm256_mul_pd E self.val2 other.val2)
      (_mm256_mul_pd E self.val3 other.val3)

/-- `operator/=` (detail/short_vec_avx_double_16.hpp:185-192) -/
def opDivAssign (E : FEnv) (self : V) (other : V) : V :=
  let val0 : M256d := _mm256_div_pd E self.val0 other.val0
  let val1 : M256d := _mm256_div_pd E self.val1 other.val1
  let val2 : M256d := _mm256_div_pd E self.val2 other.val2
  let val3 : M256d := _mm256_div_pd E self.val3 other.val3
  ⟨val0, val1, val2, val3⟩

/-- `operator/` (detail/short_vec_avx_double_16.hpp:194-202) -/
def opDiv (E : FEnv) (self : V) (other : V) : V :=
  ofRegs E (_mm256_div_pd E self.val0 other.val0) (_mm256_div_pd E self.val1 other.val1) (_mm256_div_pd E self.val2 other.val2)
      (_mm256_div_pd E self.val3 other.val3)

/-- `operator<` (detail/short_vec_avx_double_16.hpp:204-212) -/
def opLt (E : FEnv) (self : V) (other : V) : V :=
  ofRegs E (_mm256_cmp_pd E self.val0 other.val0 _CMP_LT_OS) (_mm256_cmp_pd E self.val1 other.val1 _CMP_LT_OS) (_mm256_cmp_pd E
      self.val2 other.val2 _CMP_LT_OS) (_mm256_cmp_pd E self.val3 other.val3 _CMP_LT_OS)

/-- `operator<=` (detail/short_vec_avx_double_16.hpp:214-222) -/
def opLe (E : FEnv) (self : V) (other : V) : V :=
  ofRegs E (_mm256_cmp_pd E self.val0 other.val0 _CMP_LE_OS) (_mm256_cmp_pd E self.val1 other.val1 _CMP_LE_OS) (_mm256_cmp_pd E
      self.val2 other.val2 _CMP_LE_OS) (_mm256_cmp_pd E self.val3 other.val3 _CMP_LE_OS)

/-- `operator==` (detail/short_vec_avx_double_16.hpp:224-232) -/
def opEq (E : FEnv) (self : V) (other : V) : V :=
  ofRegs E (_mm256_cmp_pd E self.val0 other.val0 _CMP_EQ_OQ) (_mm256_cmp_pd E self.val1 other.val1 _CMP_EQ_OQ) (_mm256_cmp_pd E
      self.val2 other.val2 _CMP_EQ_OQ) (_mm256_cmp_pd E self.val3 other.val3 _CMP_EQ_OQ)

/-- `operator>` (detail/short_vec_avx_double_16.hpp:234-242) -/
def opGt (E : FEnv) (self : V) (other : V) : V :=
  ofRegs E (_mm256_cmp_pd E self.val0 other.val0 _CMP_GT_OS) (_mm256_cmp_pd E self.val1 other.val1 _CMP_GT_OS) (_mm256_cmp_pd E
      self.val2 other.val2 _CMP_GT_OS) (_mm256_cmp_pd E self.val3 other.val3 _CMP_GT_OS)

/-- `operator>=` (detail/short_vec_avx_double_16.hpp:244-252) -/
def opGe (E : FEnv) (self : V) (other : V) : V :=
  ofRegs E (_mm256_cmp_pd E self.val0 other.val0 _CMP_GE_OS) (_mm256_cmp_pd E self.val1 other.val1 _CMP_GE_OS) (_mm256_cmp_pd E
      self.val2 other.val2 _CMP_GE_OS) (_mm256_cmp_pd E self.val3 other.val3 _CMP_GE_OS)

/-- `load_aligned` (detail/short_vec_avx_double_16.hpp:273-281) -/
def load_aligned (E : FEnv) (m : Mem 64) (self : V) (data : Int) : Option V := do
  assertAligned 8 data 32
  let t1 ← _mm256_load_pd m (data + 0)
  let val0 : M256d := t1
  let t2 ← _mm256_load_pd m (data + 4)
  let val1 : M256d := t2
  let t3 ← _mm256_load_pd m (data + 8)
  let val2 : M256d := t3
  let t4 ← _mm256_load_pd m (data + 12)
  let val3 : M256d := t4
  some ⟨val0, val1, val2, val3⟩

/-- `store_aligned` (detail/short_vec_avx_double_16.hpp:292-300) -/
def store_aligned (E : FEnv) (self : V) (data : Int) : Option (Writes 64) := do
  assertAligned 8 data 32
  let w1 ← _mm256_store_pd (data + 0) self.val0
  let w2 ← _mm256_store_pd (data + 4) self.val1
  let w3 ← _mm256_store_pd (data + 8) self.val2
  let w4 ← _mm256_store_pd (data + 12) self.val3
  some (w1 ++ w2 ++ w3 ++ w4)

/-- `store_nt` (detail/short_vec_avx_double_16.hpp:302-310) -/
def store_nt (E : FEnv) (self : V) (data : Int) : Option (Writes 64) := do
  assertAligned 8 data 32
  let w1 ← _mm256_stream_pd (data + 0) self.val0
  let w2 ← _mm256_stream_pd (data + 4) self.val1
  let w3 ← _mm256_stream_pd (data + 8) self.val2
  let w4 ← _mm256_stream_pd (data + 12) self.val3
  some (w1 ++ w2 ++ w3 ++ w4)

/-- `gather` (detail/short_vec_avx_double_16.hpp:327-353; avx) -/
def gather_avx (E : FEnv) (m : Mem 64) (mo : Mem 32) (self : V) (ptr : Int) (offsets : Int) : Option V := do
  let t1 ← mo (offsets + 3)
  let t2 ← m (ptr + t1.toInt)
  let t3 ← mo (offsets + 2)
  let t4 ← m (ptr + t3.toInt)
  let t5 ← mo (offsets + 1)
  let t6 ← m (ptr + t5.toInt)
  let t7 ← mo (offsets + 0)
  let t8 ← m (ptr + t7.toInt)
  let val0 : M256d := _mm256_set_pd t2 t4 t6 t8
  let t9 ← mo (offsets + 7)
  let t10 ← m (ptr + t9.toInt)
  let t11 ← mo (offsets + 6)
  let t12 ← m (ptr + t11.toInt)
  let t13 ← mo (offsets + 5)
  let t14 ← m (ptr + t13.toInt)
  let t15 ← mo (offsets + 4)
  let t16 ← m (ptr + t15.toInt)
  let val1 : M256d := _mm256_set_pd t10 t12 t14 t16
  let t17 ← mo (offsets + 11)
  let t18 ← m (ptr + t17.toInt)
  let t19 ← mo (offsets + 10)
  let t20 ← m (ptr + t19.toInt)
  let t21 ← mo (offsets + 9)
  let t22 ← m (ptr + t21.toInt)
  let t23 ← mo (offsets + 8)
  let t24 ← m (ptr + t23.toInt)
  let val2 : M256d := _mm256_set_pd t18 t20 t22 t24
  let t25 ← mo (offsets + 15)
  let t26 ← m (ptr + t25.toInt)
  let t27 ← mo (offsets + 14)
  let t28 ← m (ptr + t27.toInt)
  let t29 ← mo (offsets + 13)
  let t30 ← m (ptr + t29.toInt)
  let t31 ← mo (offsets + 12)
  let t32 ← m (ptr + t31.toInt)
  let val3 : M256d := _mm256_set_pd t26 t28 t30 t32
  some ⟨val0, val1, val2, val3⟩

/-- `gather` (detail/short_vec_avx_double_16.hpp:313-325; avx2) -/
def gather_avx2 (E : FEnv) (m : Mem 64) (mo : Mem 32) (self : V) (ptr : Int) (offsets : Int) : Option V := do
  let indices : M128i := (uninit : M128i)
  let t1 ← _mm_loadu_si128 mo offsets
  let indices : M128i := t1
  let t2 ← _mm256_i32gather_pd m ptr indices 8
  let val0 : M256d := t2
  let t3 ← _mm_loadu_si128 mo (offsets + 4)
  let indices : M128i := t3
  let t4 ← _mm256_i32gather_pd m ptr indices 8
  let val1 : M256d := t4
  let t5 ← _mm_loadu_si128 mo (offsets + 8)
  let indices : M128i := t5
  let t6 ← _mm256_i32gather_pd m ptr indices 8
  let val2 : M256d := t6
  let t7 ← _mm_loadu_si128 mo (offsets + 12)
  let indices : M128i := t7
  let t8 ← _mm256_i32gather_pd m ptr indices 8
  let val3 : M256d := t8
  some ⟨val0, val1, val2, val3⟩

/-- `scatter` (detail/short_vec_avx_double_16.hpp:356-384) -/
def scatter (E : FEnv) (mo : Mem 32) (self : V) (ptr : Int) (offsets : Int) : Option (Writes 64) := do
  let tmp : M128d := (uninit : M128d)
  let tmp : M128d := _mm256_extractf128_pd self.val0 0
  let t1 ← mo (offsets + 0)
  let w2 ← _mm_storel_pd (ptr + t1.toInt) tmp
  let t3 ← mo (offsets + 1)
  let w4 ← _mm_storeh_pd (ptr + t3.toInt) tmp
  let tmp : M128d := _mm256_extractf128_pd self.val0 1
  let t5 ← mo (offsets + 2)
  let w6 ← _mm_storel_pd (ptr + t5.toInt) tmp
  let t7 ← mo (offsets + 3)
  let w8 ← _mm_storeh_pd (ptr + t7.toInt) tmp
  let tmp : M128d := _mm256_extractf128_pd self.val1 0
  let t9 ← mo (offsets + 4)
  let w10 ← _mm_storel_pd (ptr + t9.toInt) tmp
  let t11 ← mo (offsets + 5)
  let w12 ← _mm_storeh_pd (ptr + t11.toInt) tmp
  let tmp : M128d := _mm256_extractf128_pd self.val1 1
  let t13 ← mo (offsets + 6)
  let w14 ← _mm_storel_pd (ptr + t13.toInt) tmp
  let t15 ← mo (offsets + 7)
  let w16 ← _mm_storeh_pd (ptr + t15.toInt) tmp
  let tmp : M128d := _mm256_extractf128_pd self.val2 0
  let t17 ← mo (offsets + 8)
  let w18 ← _mm_storel_pd (ptr + t17.toInt) tmp
  let t19 ← mo (offsets + 9)
  let w20 ← _mm_storeh_pd (ptr + t19.toInt) tmp
  let tmp : M128d := _mm256_extractf128_pd self.val2 1
  let t21 ← mo (offsets + 10)
  let w22 ← _mm_storel_pd (ptr + t21.toInt) tmp
  let t23 ← mo (offsets + 11)
  let w24 ← _mm_storeh_pd (ptr + t23.toInt) tmp
  let tmp : M128d := _mm256_extractf128_pd self.val3 0
  let t25 ← mo (offsets + 12)
  let w26 ← _mm_storel_pd (ptr + t25.toInt) tmp
  let t27 ← mo (offsets + 13)
  let w28 ← _mm_storeh_pd (ptr + t27.toInt) tmp
  let tmp : M128d := _mm256_extractf128_pd self.val3 1
  let t29 ← mo (offsets + 14)
  let w30 ← _mm_storel_pd (ptr + t29.toInt) tmp
  let t31 ← mo (offsets + 15)
  let w32 ← _mm_storeh_pd (ptr + t31.toInt) tmp
  some (w2 ++ w4 ++ w6 ++ w8 ++ w10 ++ w12 ++ w14 ++ w16 ++ w18 ++ w20 ++ w22 ++ w24 ++ w26 ++ w28 ++ w30 ++ w32)

/-- `blend` (detail/short_vec_avx_double_16.hpp:386-393) -/
def blend (E : FEnv) (self : V) (mask : Mask) (other : V) : V :=
  let val0 : M256d := _mm256_blendv_pd self.val0 other.val0 mask.val0
  let val1 : M256d := _mm256_blendv_pd self.val1 other.val1 mask.val1
  let val2 : M256d := _mm256_blendv_pd self.val2 other.val2 mask.val2
  let val3 : M256d := _mm256_blendv_pd self.val3 other.val3 mask.val3
  ⟨val0, val1, val2, val3⟩

/-- `operator<<`, free function (detail/short_vec_avx_double_16.hpp:399-403) -/
def opStore (E : FEnv) (data : Int) (vec : V) : Option (Writes 64) := do
  let w1 ← store E vec data
  some w1

/-- `sqrt`, free function (detail/short_vec_avx_double_16.hpp:409-413) -/
def sqrtFn (E : FEnv) (vec : V) : V := sqrt E vec

/-- `operator<<`, free function (detail/short_vec_avx_double_16.hpp:415-431) -/
def print (E : FEnv) (vec : V) : List (Out 64) :=
  [.s "[", .v vec.val0.x0.x0, .s ", ", .v vec.val0.x0.x1, .s ", ", .v vec.val0.x1.x0, .s ", ", .v vec.val0.x1.x1, .s ", ", .v
      vec.val1.x0.x0, .s ", ", .v vec.val1.x0.x1, .s ", ", .v vec.val1.x1.x0, .s ", ", .v vec.val1.x1.x1, .s ", ", .v
      vec.val2.x0.x0, .s ", ", .v vec.val2.x0.x1, .s ", ", .v vec.val2.x1.x0, .s ", ", .v vec.val2.x1.x1, .s ", ", .v
      vec.val3.x0.x0, .s ", ", .v vec.val3.x0.x1, .s ", ", .v vec.val3.x1.x0, .s ", ", .v vec.val3.x1.x1, .s "]"]

end LFA.SV.AvxDouble16

namespace LFA.SV.AvxDouble32

/-- members of `short_vec<double, 32>` (detail/short_vec_avx_double_32.hpp:47) -/
structure V where
  val0 : M256d
  val1 : M256d
  val2 : M256d
  val3 : M256d
  val4 : M256d
  val5 : M256d
  val6 : M256d
  val7 : M256d

/-- lanes, from low to high -/
def V.lanes (v : V) : List (BitVec 64) := SV.lanes v.val0 ++ (SV.lanes v.val1 ++ (SV.lanes v.val2 ++ (SV.lanes v.val3 ++
    (SV.lanes v.val4 ++ (SV.lanes v.val5 ++ (SV.lanes v.val6 ++ (SV.lanes v.val7)))))))

/-- `mask_type` -/
abbrev Mask := V

/-- constructor (detail/short_vec_avx_double_32.hpp:59-69) -/
def bcast (E : FEnv) (data : BitVec 64) : V :=
  ⟨_mm256_broadcast_sd data, _mm256_broadcast_sd data, _mm256_broadcast_sd data, _mm256_broadcast_sd data, _mm256_broadcast_sd
      data, _mm256_broadcast_sd data, _mm256_broadcast_sd data, _mm256_broadcast_sd data⟩

/-- constructor (detail/short_vec_avx_double_32.hpp:77-95) -/
def ofRegs (E : FEnv) (val1 : M256d) (val2 : M256d) (val3 : M256d) (val4 : M256d) (val5 : M256d) (val6 : M256d) (val7 : M256d)
    (val8 : M256d) : V :=
  ⟨val1, val2, val3, val4, val5, val6, val7, val8⟩

/-- `load` (detail/short_vec_avx_double_32.hpp:336-347) -/
def load (E : FEnv) (m : Mem 64) (self : V) (data : Int) : Option V := do
  let t1 ← _mm256_loadu_pd m (data + 0)
  let val0 : M256d := t1
  let t2 ← _mm256_loadu_pd m (data + 4)
  let val1 : M256d := t2
  let t3 ← _mm256_loadu_pd m (data + 8)
  let val2 : M256d := t3
  let t4 ← _mm256_loadu_pd m (data + 12)
  let val3 : M256d := t4
  let t5 ← _mm256_loadu_pd m (data + 16)
  let val4 : M256d := t5
  let t6 ← _mm256_loadu_pd m (data + 20)
  let val5 : M256d := t6
  let t7 ← _mm256_loadu_pd m (data + 24)
  let val6 : M256d := t7
  let t8 ← _mm256_loadu_pd m (data + 28)
  let val7 : M256d := t8
  some ⟨val0, val1, val2, val3, val4, val5, val6, val7⟩

/-- `store` (detail/short_vec_avx_double_32.hpp:363-374) -/
def store (E : FEnv) (self : V) (data : Int) : Option (Writes 64) := do
  let w1 ← _mm256_storeu_pd (data + 0) self.val0
  let w2 ← _mm256_storeu_pd (data + 4) self.val1
  let w3 ← _mm256_storeu_pd (data + 8) self.val2
  let w4 ← _mm256_storeu_pd (data + 12) self.val3
  let w5 ← _mm256_storeu_pd (data + 16) self.val4
  let w6 ← _mm256_storeu_pd (data + 20) self.val5
  let w7 ← _mm256_storeu_pd (data + 24) self.val6
  let w8 ← _mm256_storeu_pd (data + 28) self.val7
  some (w1 ++ w2 ++ w3 ++ w4 ++ w5 ++ w6 ++ w7 ++ w8)

/-- `sqrt` (detail/short_vec_avx_double_32.hpp:322-334) -/
def sqrt (E : FEnv) (self : V) : V :=
  ofRegs E (_mm256_sqrt_pd E self.val0) (_mm256_sqrt_pd E self.val1) (_mm256_sqrt_pd E self.val2) (_mm256_sqrt_pd E self.val3)
      (_mm256_sqrt_pd E self.val4) (_mm256_sqrt_pd E self.val5) (_mm256_sqrt_pd E self.val6) (_mm256_sqrt_pd E self.val7)

/-- constructor (detail/short_vec_avx_double_32.hpp:71-75) -/
def ofPtr (E : FEnv) (m : Mem 64) (data : Int) : Option V := do
  let v1 ← load E m ⟨(uninit : M256d), (uninit : M256d), (uninit : M256d), (uninit : M256d), (uninit : M256d), (uninit :
      M256d), (uninit : M256d), (uninit : M256d)⟩ data
  some ⟨v1.val0, v1.val1, v1.val2, v1.val3, v1.val4, v1.val5, v1.val6, v1.val7⟩

/-- constructor (detail/short_vec_avx_double_32.hpp:98-103) -/
def ofList (E : FEnv) (m : Mem 64) (il : Int) : Option V := do
  let v1 ← load E m ⟨(uninit : M256d), (uninit : M256d), (uninit : M256d), (uninit : M256d), (uninit : M256d), (uninit :
      M256d), (uninit : M256d), (uninit : M256d)⟩ il
  some ⟨v1.val0, v1.val1, v1.val2, v1.val3, v1.val4, v1.val5, v1.val6, v1.val7⟩

/-- `any` (detail/short_vec_avx_double_32.hpp:106-119) -/
def any (E : FEnv) (self : V) : Bool :=
  let buf0 : M256d := _mm256_or_pd (_mm256_or_pd (_mm256_or_pd self.val0 self.val1) (_mm256_or_pd self.val2 self.val3))
      (_mm256_or_pd (_mm256_or_pd self.val4 self.val5) (_mm256_or_pd self.val6 self.val7))
  (0 : BitVec 32) == (_mm256_testz_si256 (_mm256_castpd_si256 buf0) (_mm256_castpd_si256 buf0))

/-- `operator[]` (detail/short_vec_avx_double_32.hpp:121-142) -/
def opIndex (E : FEnv) (self : V) (i : BitVec 32) : Option (BitVec 64) := do
  let t1 ← dyn [self.val0, self.val1, self.val2, self.val3, self.val4, self.val5, self.val6, self.val7] (i.sshiftRight 2)
  let buf0 : M256d := t1
  let i : BitVec 32 := i &&& (3 : BitVec 32)
  let buf1 : M128d := (uninit : M128d)
  let buf1 : M128d := if BitVec.slt i (2 : BitVec 32) then _mm256_extractf128_pd buf0 0 else _mm256_extractf128_pd buf0 1
  let i : BitVec 32 := i &&& (1 : BitVec 32)
  if i == (0 : BitVec 32) then do
    some (_mm_cvtsd_f64 buf1)
  else do
    let buf1 : M128d := _mm_shuffle_pd buf1 buf1 1
    some (_mm_cvtsd_f64 buf1)

/-- `operator-=` (detail/short_vec_avx_double_32.hpp:144-155) -/
def opSubAssign (E : FEnv) (self : V) (other : V) : V :=
  let val0 : M256d := _mm256_sub_pd E self.val0 other.val0
  let val1 : M256d := _mm256_sub_pd E self.val1 other.val1
  let val2 : M256d := _mm256_sub_pd E self.val2 other.val2
  let val3 : M256d := _mm256_sub_pd E self.val3 other.val3
  let val4 : M256d := _mm256_sub_pd E self.val4 other.val4
  let val5 : M256d := _mm256_sub_pd E self.val5 other.val5
  let val6 : M256d := _mm256_sub_pd E self.val6 other.val6
  let val7 : M256d := _mm256_sub_pd E self.val7 other.val7
  ⟨val0, val1, val2, val3, val4, val5, val6, val7⟩

/-- `operator-` (detail/short_vec_avx_double_32.hpp:157-169) -/
def opSub (E : FEnv) (self : V) (other : V) : V :=
  ofRegs E (_mm256_sub_pd E self.val0 other.val0) (_mm256_sub_pd E self.val1 other.val1) (_mm256_sub_pd E self.val2 other.val2)
      (_mm256_sub_pd E self.val3 other.val3) (_mm256_sub_pd E self.val4 other.val4) (_mm256_sub_pd E self.val5 other.val5)
      (_mm256_sub_pd E self.val6 other.val6) (_mm256_sub_pd E self.val7 other.val7)

/-- `operator+=` (detail/short_vec_avx_double_32.hpp:171-182) -/
def opAddAssign (E : FEnv) (self : V) (other : V) : V :=
  let val0 : M256d := _mm256_add_pd E self.val0 other.val0
  let val1 : M256d := _mm256_add_pd E self.val1 other.val1
  let val2 : M256d := _mm256_add_pd E self.val2 other.val2
  let val3 : M256d := _mm256_add_pd E self.val3 other.val3
  let val4 : M256d := _mm256_add_pd E self.val4 other.val4
  let val5 : M256d := _mm256_add_pd E self.val5 other.val5
  let val6 : M256d := _mm256_add_pd E self.val6 other.val6
  let val7 : M256d := _mm256_add_pd E self.val7 other.val7
  ⟨val0, val1, val2, val3, val4, val5, val6, val7⟩

/-- `operator+` (detail/short_vec_avx_double_32.hpp:184-196) -/
def opAdd (E : FEnv) (self : V) (other : V) : V :=
  ofRegs E (_mm256_add_pd E self.val0 other.val0) (_mm256_add_pd E self.val1 other.val1) (_mm256_add_pd E self.val2 other.val2)
      (_mm256_add_pd E self.val3 other.val3) (_mm256_add_pd E self.val4 other.val4) (_mm256_add_pd E self.val5 other.val5)
      (_mm256_add_pd E self.val6 other.val6) (_mm256_add_pd E self.val7 other.val7)

/-- `operator*=` (detail/short_vec_avx_double_32.hpp:198-209) -/
def opMulAssign (E : FEnv) (self : V) (other : V) : V :=
  let val0 : M256d := _mm256_mul_pd E self.val0 other.val0
  let val1 : M256d := _mm256_mul_pd E self.val1 other.val1
  let val2 : M256d := _mm256_mul_pd E self.val2 other.val2
  let val3 : M256d := _mm256_mul_pd E self.val3 other.val3
  let val4 : M256d := _mm256_mul_pd E self.val4 other.val4
  let val5 : M256d := _mm256_mul_pd E self.val5 other.val5
  let val6 : M256d := _mm256_mul_pd E self.val6 other.val6
  let val7 : M256d := _mm256_mul_pd E self.val7 other.val7
  ⟨val0, val1, val2, val3, val4, val5, val6, val7⟩

/-- `operator*` (detail/short_vec_avx_double_32.hpp:211-223) -/
def opMul (E : FEnv) (self : V) (other : V) : V :=
  ofRegs E (_mm256_mul_pd E self.val0 other.val0) (_mm256_mul_pd E self.val1 other.val1) (_mm256_mul_pd E self.val2 other.val2)
      (_mm256_mul_pd E self.val3 other.val3) (_mm256_mul_pd E self.val4 other.val4) (_mm256_mul_pd E self.val5 other.val5)
      (_mm256_mul_pd E self.val6 other.val6) (_mm256_mul_pd E self.val7 other.val7)

/-- `operator/=` (detail/short_vec_avx_double_32.hpp:225-236) -/
def opDivAssign (E : FEnv) (self : V) (other : V) : V :=
  let val0 : M256d := _mm256_div_pd E self.val0 other.val0
  let val1 : M256d := _mm256_div_pd E self.val1 other.val1
  let val2 : M256d := _mm256_div_pd E self.val2 other.val2
  let val3 : M256d := _mm256_div_pd E self.val3 other.val3
  let val4 : M256d := _mm256_div_pd E self.val4 other.val4
  let val5 : M256d := _mm256_div_pd E self.val5 other.val5
  let val6 : M256d := _mm256_div_pd E self.val6 other.val6
  let val7 : M256d := _mm256_div_pd E self.val7 other.val7
  ⟨val0, val1, val2, val3, val4, val5, val6, val7⟩

/-- `operator/` (detail/short_vec_avx_double_32.hpp:238-250) -/
def opDiv (E : FEnv) (self : V) (other : V) : V :=
  ofRegs E (_mm256_div_pd E self.val0 other.val0) (_mm256_div_pd E self.val1 other.val1) (_mm256_div_pd E self.val2 other.val2)
      (_mm256_div_pd E self.val3 other.val3) (_mm256_div_pd E self.val4 other.val4) (_mm256_div_pd E self.val5 other.val5)
      (_mm256_div_pd E self.val6 other.val6) (_mm256_div_pd E self.val7 other.val7)

/-- `operator<` (detail/short_vec_avx_double_32.hpp:252-264) -/
def opLt (E : FEnv) (self : V) (other : V) : V :=
  ofRegs E (_mm256_cmp_pd E self.val0 other.val0 _CMP_LT_OS) (_mm256_cmp_pd E self.val1 other.val1 _CMP_LT_OS) (_mm256_cmp_pd E
      self.val2 other.val2 _CMP_LT_OS) (_mm256_cmp_pd E self.val3 other.val3 _CMP_LT_OS) (_mm256_cmp_pd E self.val4 other.val4
      _CMP_LT_OS) (_mm256_cmp_pd E self.val5 other.val5 _CMP_LT_OS) (_mm256_cmp_pd E self.val6 other.val6 _CMP_LT_OS)
      (_mm256_cmp_pd E self.val7 other.val7 _CMP_LT_OS)

/-- `operator<=` (detail/short_vec_avx_double_32.hpp:266-278) -/
def opLe (E : FEnv) (self : V) (other : V) : V :=
  ofRegs E (_mm256_cmp_pd E self.val0 other.val0 _CMP_LE_OS) (_mm256_cmp_pd E self.val1 other.val1 _CMP_LE_OS) (_mm256_cmp_pd E
      self.val2 other.val2 _CMP_LE_OS) (_mm256_cmp_pd E self.val3 other.val3 _CMP_LE_OS) (_mm256_cmp_pd E self.val4 other.val4
      _CMP_LE_OS) (_mm256_cmp_pd E self.val5 other.val5 _CMP_LE_OS) (_mm256_cmp_pd E self.val6 other.val6 _CMP_LE_OS)
      (_mm256_cmp_pd E self.val7 other.val7 _CMP_LE_OS)

/-- `operator==` (detail/short_vec_avx_double_32.hpp:280-292) -/
def opEq (E : FEnv) (self : V) (other : V) : V :=
  ofRegs E (_mm256_cmp_pd E self.val0 other.val0 _CMP_EQ_OQ) (_mm256_cmp_pd E self.val1 other.val1 _CMP_EQ_OQ) (_mm256_cmp_pd E
      self.val2 other.val2 _CMP_EQ_OQ) (_mm256_cmp_pd E self.val3 other.val3 _CMP_EQ_OQ) (_mm256_cmp_pd E self.val4 other.val4
      _CMP_EQ_OQ) (_mm256_cmp_pd E self.val5 other.val5 _CMP_EQ_OQ) (_mm256_cmp_pd E self.val6 other.val6 _CMP_EQ_OQ)
      (_mm256_cmp_pd E self.val7 other.val7 _CMP_EQ_OQ)

/-- `operator>` (detail/short_vec_avx_double_32.hpp:294-306) -/
def opGt (E : FEnv) (self : V) (other : V) : V :=
  ofRegs E (_mm256_cmp_pd E self.val0 other.val0 _CMP_GT_OS) (_mm256_cmp_pd E self.val1 other.val1 _CMP_GT_OS) (_mm256_cmp_pd E
      self.val2 other.val2 _CMP_GT_OS) (_mm256_cmp_pd E self.val3 other.val3 _CMP_GT_OS) (_mm256_cmp_pd E self.val4 other.val4
      _CMP_GT_OS) (_mm256_cmp_pd E self.val5 other.val5 _CMP_GT_OS) (_mm256_cmp_pd E self.val6 other.val6 _CMP_GT_OS)
      (_mm256_cmp_pd E self.val7 other.val7 _CMP_GT_OS)

/-- `operator>=` (detail/short_vec_avx_double_32.hpp:308-320) -/
def opGe (E : FEnv) (self : V) (other : V) : V :=
  ofRegs E (_mm256_cmp_pd E self.val0 other.val0 _CMP_GE_OS) (_mm256_cmp_pd E self.val1 other.val1 _CMP_GE_OS) (_mm256_cmp_pd E
      self.val2 other.val2 _CMP_GE_OS) (_mm256_cmp_pd E self.val3 other.val3 _CMP_GE_OS) (_mm256_cmp_pd E self.val4 other.val4
      _CMP_GE_OS) (_mm256_cmp_pd E self.val5 other.val5 _CMP_GE_OS) (_mm256_cmp_pd E self.val6 other.val6 _CMP_GE_OS)
      (_mm256_cmp_pd E self.val7 other.val7 _CMP_GE_OS)

/-- `load_aligned` (detail/short_vec_avx_double_32.hpp:349-361) -/
def load_aligned (E : FEnv) (m : Mem 64) (self : V) (data : Int) : Option V := do
  assertAligned 8 data 32
  let t1 ← _mm256_load_pd m (data + 0)
  let val0 : M256d := t1
  let t2 ← _mm256_load_pd m (data + 4)
  let val1 : M256d := t2
  let t3 ← _mm256_load_pd m (data + 8)
  let val2 : M256d := t3
  let t4 ← _mm256_load_pd m (data + 12)
  let val3 : M256d := t4
  let t5 ← _mm256_load_pd m (data + 16)
  let val4 : M256d := t5
  let t6 ← _mm256_load_pd m (data + 20)
  let val5 : M256d := t6
  let t7 ← _mm256_load_pd m (data + 24)
  let val6 : M256d := t7
  let t8 ← _mm256_load_pd m (data + 28)
  let val7 : M256d := t8
  some ⟨val0, val1, val2, val3, val4, val5, val6, val7⟩

/-- `store_aligned` (detail/short_vec_avx_double_32.hpp:376-388) -/
def store_aligned (E : FEnv) (self : V) (data : Int) : Option (Writes 64) := do
  assertAligned 8 data 32
  let w1 ← _mm256_store_pd (data + 0) self.val0
  let w2 ← _mm256_store_pd (data + 4) self.val1
  let w3 ← _mm256_store_pd (data + 8) self.val2
  let w4 ← _mm256_store_pd (data + 12) self.val3
  let w5 ← _mm256_store_pd (data + 16) self.val4
  let w6 ← _mm256_store_pd (data + 20) self.val5
  let w7 ← _mm256_store_pd (data + 24) self.val6
  let w8 ← _mm256_store_pd (data + 28) self.val7
  some (w1 ++ w2 ++ w3 ++ w4 ++ w5 ++ w6 ++ w7 ++ w8)

/-- `store_nt` (detail/short_vec_avx_double_32.hpp:390-402) -/
def store_nt (E : FEnv) (self : V) (data : Int) : Option (Writes 64) := do
  assertAligned 8 data 32
  let w1 ← _mm256_stream_pd (data + 0) self.val0
  let w2 ← _mm256_stream_pd (data + 4) self.val1
  let w3 ← _mm256_stream_pd (data + 8) self.val2
  let w4 ← _mm256_stream_pd (data + 12) self.val3
  let w5 ← _mm256_stream_pd (data + 16) self.val4
  let w6 ← _mm256_stream_pd (data + 20) self.val5
  let w7 ← _mm256_stream_pd (data + 24) self.val6
  let w8 ← _mm256_stream_pd (data + 28) self.val7
  some (w1 ++ w2 ++ w3 ++ w4 ++ w5 ++ w6 ++ w7 ++ w8)

/-- `gather` (detail/short_vec_avx_double_32.hpp:427-477; avx) -/
def gather_avx (E : FEnv) (m : Mem 64) (mo : Mem 32) (self : V) (ptr : Int) (offsets : Int) : Option V := do
  let t1 ← mo (offsets + 3)
  let t2 ← m (ptr + t1.toInt)
  let t3 ← mo (offsets + 2)
  let t4 ← m (ptr + t3.toInt)
  let t5 ← mo (offsets + 1)
  let t6 ← m (ptr + t5.toInt)
  let t7 ← mo (offsets + 0)
  let t8 ← m (ptr + t7.toInt)
  let val0 : M256d := _mm256_set_pd t2 t4 t6 t8
  let t9 ← mo (offsets + 7)
  let t10 ← m (ptr + t9.toInt)
  let t11 ← mo (offsets + 6)
  let t12 ← m (ptr + t11.toInt)
  let t13 ← mo (offsets + 5)
  let t14 ← m (ptr + t13.toInt)
  let t15 ← mo (offsets + 4)
  let t16 ← m (ptr + t15.toInt)
  let val1 : M256d := _mm256_set_pd t10 t12 t14 t16
  let t17 ← mo (offsets + 11)
  let t18 ← m (ptr + t17.toInt)
  let t19 ← mo (offsets + 10)
  let t20 ← m (ptr + t19.toInt)
  let t21 ← mo (offsets + 9)
  let t22 ← m (ptr + t21.toInt)
  let t23 ← mo (offsets + 8)
  let t24 ← m (ptr + t23.toInt)
  let val2 : M256d := _mm256_set_pd t18 t20 t22 t24
  let t25 ← mo (offsets + 15)
  let t26 ← m (ptr + t25.toInt)
  let t27 ← mo (offsets + 14)
  let t28 ← m (ptr + t27.toInt)
  let t29 ← mo (offsets + 13)
  let t30 ← m (ptr + t29.toInt)
  let t31 ← mo (offsets + 12)
  let t32 ← m (ptr + t31.toInt)
  let val3 : M256d := _mm256_set_pd t26 t28 t30 t32
  let t33 ← mo (offsets + 19)
  let t34 ← m (ptr + t33.toInt)
  let t35 ← mo (offsets + 18)
  let t36 ← m (ptr + t35.toInt)
  let t37 ← mo (offsets + 17)
  let t38 ← m (ptr + t37.toInt)
  let t39 ← mo (offsets + 16)
  let t40 ← m (ptr + t39.toInt)
  let val4 : M256d := _mm256_set_pd t34 t36 t38 t40
  let t41 ← mo (offsets + 23)
  let t42 ← m (ptr + t41.toInt)
  let t43 ← mo (offsets + 22)
  let t44 ← m (ptr + t43.toInt)
  let t45 ← mo (offsets + 21)
  let t46 ← m (ptr + t45.toInt)
  let t47 ← mo (offsets + 20)
  let t48 ← m (ptr + t47.toInt)
  let val5 : M256d := _mm256_set_pd t42 t44 t46 t48
  let t49 ← mo (offsets + 27)
  let t50 ← m (ptr + t49.toInt)
  let t51 ← mo (offsets + 26)
  let t52 ← m (ptr + t51.toInt)
  let t53 ← mo (offsets + 25)
  let t54 ← m (ptr + t53.toInt)
  let t55 ← mo (offsets + 24)
  let t56 ← m (ptr + t55.toInt)
  let val6 : M256d := _mm256_set_pd t50 t52 t54 t56
  let t57 ← mo (offsets + 31)
  let t58 ← m (ptr + t57.toInt)
  let t59 ← mo (offsets + 30)
  let t60 ← m (ptr + t59.toInt)
  let t61 ← mo (offsets + 29)
  let t62 ← m (ptr + t61.toInt)
  let t63 ← mo (offsets + 28)
  let t64 ← m (ptr + t63.toInt)
  let val7 : M256d := _mm256_set_pd t58 t60 t62 t64
  some ⟨val0, val1, val2, val3, val4, val5, val6, val7⟩

/-- `gather` (detail/short_vec_avx_double_32.hpp:405-425; avx2) -/
def gather_avx2 (E : FEnv) (m : Mem 64) (mo : Mem 32) (self : V) (ptr : Int) (offsets : Int) : Option V := do
  let indices : M128i := (uninit : M128i)
  let t1 ← _mm_loadu_si128 mo offsets
  let indices : M128i := t1
  let t2 ← _mm256_i32gather_pd m ptr indices 8
  let val0 : M256d := t2
  let t3 ← _mm_loadu_si128 mo (offsets + 4)
  let indices : M128i := t3
  let t4 ← _mm256_i32gather_pd m ptr indices 8
  let val1 : M256d := t4
  let t5 ← _mm_loadu_si128 mo (offsets + 8)
  let indices : M128i := t5
  let t6 ← _mm256_i32gather_pd m ptr indices 8
  let val2 : M256d := t6
  let t7 ← _mm_loadu_si128 mo (offsets + 12)
  let indices : M128i := t7
  let t8 ← _mm256_i32gather_pd m ptr indices 8
  let val3 : M256d := t8
  let t9 ← _mm_loadu_si128 mo (offsets + 16)
  let indices : M128i := t9
  let t10 ← _mm256_i32gather_pd m ptr indices 8
  let val4 : M256d := t10
  let t11 ← _mm_loadu_si128 mo (offsets + 20)
  let indices : M128i := t11
  let t12 ← _mm256_i32gather_pd m ptr indices 8
  let val5 : M256d := t12
  let t13 ← _mm_loadu_si128 mo (offsets + 24)
  let indices : M128i := t13
  let t14 ← _mm256_i32gather_pd m ptr indices 8
  let val6 : M256d := t14
  let t15 ← _mm_loadu_si128 mo (offsets + 28)
  let indices : M128i := t15
  let t16 ← _mm256_i32gather_pd m ptr indices 8
  let val7 : M256d := t16
  some ⟨val0, val1, val2, val3, val4, val5, val6, val7⟩

/-- `scatter` (detail/short_vec_avx_double_32.hpp:480-547) -/
def scatter (E : FEnv) (mo : Mem 32) (self : V) (ptr : Int) (offsets : Int) : Option (Writes 64) := do
  let tmp : M128d := (uninit : M128d)
  let tmp : M128d := _mm256_extractf128_pd self.val0 0
  let t1 ← mo (offsets + 0)
  let w2 ← _mm_storel_pd (ptr + t1.toInt) tmp
  let t3 ← mo (offsets + 1)
  let w4 ← _mm_storeh_pd (ptr + t3.toInt) tmp
  let tmp : M128d := _mm256_extractf128_pd self.val0 1
  let t5 ← mo (offsets + 2)
  let w6 ← _mm_storel_pd (ptr + t5.toInt) tmp
  let t7 ← mo (offsets + 3)
  let w8 ← _mm_storeh_pd (ptr + t7.toInt) tmp
  let tmp : M128d := _mm256_extractf128_pd self.val1 0
  let t9 ← mo (offsets + 4)
  let w10 ← _mm_storel_pd (ptr + t9.toInt) tmp
  let t11 ← mo (offsets + 5)
  let w12 ← _mm_storeh_pd (ptr + t11.toInt) tmp
  let tmp : M128d := _mm256_extractf128_pd self.val1 1
  let t13 ← mo (offsets + 6)
  let w14 ← _mm_storel_pd (ptr + t13.toInt) tmp
  let t15 ← mo (offsets + 7)
  let w16 ← _mm_storeh_pd (ptr + t15.toInt) tmp
  let tmp : M128d := _mm256_extractf128_pd self.val2 0
  let t17 ← mo (offsets + 8)
  let w18 ← _mm_storel_pd (ptr + t17.toInt) tmp
  let t19 ← mo (offsets + 9)
  let w20 ← _mm_storeh_pd (ptr + t19.toInt) tmp
  let tmp : M128d := _mm256_extractf128_pd self.val2 1
  let t21 ← mo (offsets + 10)
  let w22 ← _mm_storel_pd (ptr + t21.toInt) tmp
  let t23 ← mo (offsets + 11)
  let w24 ← _mm_storeh_pd (ptr + t23.toInt) tmp
  let tmp : M128d := _mm256_extractf128_pd self.val3 0
  let t25 ← mo (offsets + 12)
  let w26 ← _mm_storel_pd (ptr + t25.toInt) tmp
  let t27 ← mo (offsets + 13)
  let w28 ← _mm_storeh_pd (ptr + t27.toInt) tmp
  let tmp : M128d := _mm256_extractf128_pd self.val3 1
  let t29 ← mo (offsets + 14)
  let w30 ← _mm_storel_pd (ptr + t29.toInt) tmp
  let t31 ← mo (offsets + 15)
  let w32 ← _mm_storeh_pd (ptr + t31.toInt) tmp
  let tmp : M128d := _mm256_extractf128_pd self.val4 0
  let t33 ← mo (offsets + 16)
  let w34 ← _mm_storel_pd (ptr + t33.toInt) tmp
  let t35 ← mo (offsets + 17)
  let w36 ← _mm_storeh_pd (ptr + t35.toInt) tmp
  let tmp : M128d := _mm256_extractf128_pd self.val4 1
  let t37 ← mo (offsets + 18)
  let w38 ← _mm_storel_pd (ptr + t37.toInt) tmp
  let t39 ← mo (offsets + 19)
  let w40 ← _mm_storeh_pd (ptr + t39.toInt) tmp
  let tmp : M128d := _mm256_extractf128_pd self.val5 0
  let t41 ← mo (offsets + 20)
  let w42 ← _mm_storel_pd (ptr + t41.toInt) tmp
  let t43 ← mo (offsets + 21)
  let w44 ← _mm_storeh_pd (ptr + t43.toInt) tmp
  let tmp : M128d := _mm256_extractf128_pd self.val5 1
  let t45 ← mo (offsets + 22)
  let w46 ← _mm_storel_pd (ptr + t45.toInt) tmp
  let t47 ← mo (offsets + 23)
  let w48 ← _mm_storeh_pd (ptr + t47.toInt) tmp
  let tmp : M128d := _mm256_extractf128_pd self.val6 0
  let t49 ← mo (offsets + 24)
  let w50 ← _mm_storel_pd (ptr + t49.toInt) tmp
  let t51 ← mo (offsets + 25)
  let w52 ← _mm_storeh_pd (ptr + t51.toInt) tmp
  let tmp : M128d := _mm256_extractf128_pd self.val6 1
  let t53 ← mo (offsets + 26)
  let w54 ← _mm_storel_pd (ptr + t53.toInt) tmp
  let t55 ← mo (offsets + 27)
  let w56 ← _mm_storeh_pd (ptr + t55.toInt) tmp
  let tmp : M128d := _mm256_extractf128_pd self.val7 0
  let t57 ← mo (offsets + 28)
  let w58 ← _mm_storel_pd (ptr + t57.toInt) tmp
  let t59 ← mo (offsets + 29)
  let w60 ← _mm_storeh_pd (ptr + t59.toInt) tmp
  let tmp : M128d := _mm256_extractf128_pd self.val7 1
  let t61 ← mo (offsets + 30)
  let w62 ← _mm_storel_pd (ptr + t61.toInt) tmp
  let t63 ← mo (offsets + 31)
  let w64 ← _mm_storeh_pd (ptr + t63.toInt) tmp
  some (w2 ++ w4 ++ w6 ++ w8 ++ w10 ++ w12 ++ w14 ++ w16 ++ w18 ++ w20 ++ w22 ++ w24 ++ w26 ++ w28 ++ w30 ++ w32 ++ w34 ++ w36
      ++ w38 ++ w40 ++ w42 ++ w44 ++ w46 ++ w48 ++ w50 ++ w52 ++ w54 ++ w56 ++ w58 ++ w60 ++ w62 ++ w64)

/-- `blend` (detail/short_vec_avx_double_32.hpp:549-560) -/
def blend (E : FEnv) (self : V) (mask : Mask) (other : V) : V :=
  let val0 : M256d := _mm256_blendv_pd self.val0 other.val0 mask.val0
  let val1 : M256d := _mm256_blendv_pd self.val1 other.val1 mask.val1
  let val2 : M256d := _mm256_blendv_pd self.val2 other.val2 mask.val2
  let val3 : M256d := _mm256_blendv_pd self.val3 other.val3 mask.val3
  let val4 : M256d := _mm256_blendv_pd self.val4 other.val4 mask.val4
  let val5 : M256d := _mm256_blendv_pd self.val5 other.val5 mask.val5
  let val6 : M256d := _mm256_blendv_pd self.val6 other.val6 mask.val6
  let val7 : M256d := _mm256_blendv_pd self.val7 other.val7 mask.val7
  ⟨val0, val1, val2, val3, val4, val5, val6, val7⟩

/-- `operator<<`, free function (detail/short_vec_avx_double_32.hpp:566-570) -/
def opStore (E : FEnv) (data : Int) (vec : V) : Option (Writes 64) := do
  let w1 ← store E vec data
  some w1

/-- `sqrt`, free function (detail/short_vec_avx_double_32.hpp:576-580) -/
def sqrtFn (E : FEnv) (vec : V) : V := sqrt E vec

/-- `operator<<`, free function (detail/short_vec_avx_double_32.hpp:582-606) -/
def print (E : FEnv) (vec : V) : List (Out 64) :=
  [.s "[", .v vec.val0.x0.x0, .s ", ", .v vec.val0.x0.x1, .s ", ", .v vec.val0.x1.x0, .s ", ", .v vec.val0.x1.x1, .s ", ", .v
      vec.val1.x0.x0, .s ", ", .v vec.val1.x0.x1, .s ", ", .v vec.val1.x1.x0, .s ", ", .v vec.val1.x1.x1, .s ", ", .v
      vec.val2.x0.x0, .s ", ", .v vec.val2.x0.x1, .s ", ", .v vec.val2.x1.x0, .s ", ", .v vec.val2.x1.x1, .s ", ", .v
      vec.val3.x0.x0, .s ", ", .v vec.val3.x0.x1, .s ", ", .v vec.val3.x1.x0, .s ", ", .v vec.val3.x1.x1, .s ", ", .v
      vec.val4.x0.x0, .s ", ", .v vec.val4.x0.x1, .s ", ", .v vec.val4.x1.x0, .s ", ", .v vec.val4.x1.x1, .s ", ", .v
      vec.val5.x0.x0, .s ", ", .v vec.val5.x0.x1, .s ", ", .v vec.val5.x1.x0, .s ", ", .v vec.val5.x1.x1, .s ", ", .v
      vec.val6.x0.x0, .s ", ", .v vec.val6.x0.x1, .s ", ", .v vec.val6.x1.x0, .s ", ", .v vec.val6.x1.x1, .s ", ", .v
      vec.val7.x0.x0, .s ", ", .v vec.val7.x0.x1, .s ", ", .v vec.val7.x1.x0, .s ", ", .v vec.val7.x1.x1, .s "]"]

end LFA.SV.AvxDouble32
