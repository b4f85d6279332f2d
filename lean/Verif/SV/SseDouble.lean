/-
  Generated by tools/sv_gen.py from detail/short_vec_sse_double_*.hpp.
-/
import Verif.SV.Base
set_option linter.unusedVariables false
set_option autoImplicit false

namespace LFA.SV.SseDouble2

/-- members of `short_vec<double, 2>` (detail/short_vec_sse_double_2.hpp:51) -/
structure V where
  val : M128d

/-- lanes, from low to high -/
def V.lanes (v : V) : List (BitVec 64) := SV.lanes v.val

/-- `mask_type` -/
abbrev Mask := V

/-- constructor (detail/short_vec_sse_double_2.hpp:63-66) -/
def bcast (E : FEnv) (data : BitVec 64) : V := ⟨_mm_set1_pd data⟩

/-- constructor (detail/short_vec_sse_double_2.hpp:74-77) -/
def ofRegs (E : FEnv) (val : M128d) : V := ⟨val⟩

/-- `load` (detail/short_vec_sse_double_2.hpp:206-210) -/
def load (E : FEnv) (m : Mem 64) (self : V) (data : Int) : Option V := do
  let t1 ← _mm_loadu_pd m data
  let val : M128d := t1
  some ⟨val⟩

/-- `store` (detail/short_vec_sse_double_2.hpp:219-223) -/
def store (E : FEnv) (self : V) (data : Int) : Option (Writes 64) := do
  let w1 ← _mm_storeu_pd (data + 0) self.val
  some w1

/-- `sqrt` (detail/short_vec_sse_double_2.hpp:199-204) -/
def sqrt (E : FEnv) (self : V) : V := ofRegs E (_mm_sqrt_pd E self.val)

/-- constructor (detail/short_vec_sse_double_2.hpp:68-72) -/
def ofPtr (E : FEnv) (m : Mem 64) (data : Int) : Option V := do
  let v1 ← load E m ⟨(uninit : M128d)⟩ data
  some ⟨v1.val⟩

/-- constructor (detail/short_vec_sse_double_2.hpp:80-85) -/
def ofList (E : FEnv) (m : Mem 64) (il : Int) : Option V := do
  let v1 ← load E m ⟨(uninit : M128d)⟩ il
  some ⟨v1.val⟩

/-- `any` (detail/short_vec_sse_double_2.hpp:88-99; avx512f, avx, avx2, sse41) -/
def any_avx512f (E : FEnv) (self : V) : Bool :=
  (0 : BitVec 32) == (_mm_testz_si128 (_mm_castpd_si128 self.val) (_mm_castpd_si128 self.val))

/-- `any` (detail/short_vec_sse_double_2.hpp:88-99; sse, sse2) -/
def any_sse (E : FEnv) (self : V) : Bool :=
  let buf0 : M128d := _mm_shuffle_pd self.val self.val 1
  (truthy (_mm_cvtsd_f64 buf0)) || (truthy (_mm_cvtsd_f64 self.val))

/-- `operator[]` (detail/short_vec_sse_double_2.hpp:101-110) -/
def opIndex (E : FEnv) (self : V) (i : BitVec 32) : BitVec 64 :=
  if i == (0 : BitVec 32) then
    _mm_cvtsd_f64 self.val
  else
    let buf : M128d := _mm_shuffle_pd self.val self.val 1
    _mm_cvtsd_f64 buf

/-- `operator-=` (detail/short_vec_sse_double_2.hpp:112-116) -/
def opSubAssign (E : FEnv) (self : V) (other : V) : V :=
  let val : M128d := _mm_sub_pd E self.val other.val
  ⟨val⟩

/-- `operator-` (detail/short_vec_sse_double_2.hpp:118-123) -/
def opSub (E : FEnv) (self : V) (other : V) : V := ofRegs E (_mm_sub_pd E self.val other.val)

/-- `operator+=` (detail/short_vec_sse_double_2.hpp:125-129) -/
def opAddAssign (E : FEnv) (self : V) (other : V) : V :=
  let val : M128d := _mm_add_pd E self.val other.val
  ⟨val⟩

/-- `operator+` (detail/short_vec_sse_double_2.hpp:131-136) -/
def opAdd (E : FEnv) (self : V) (other : V) : V := ofRegs E (_mm_add_pd E self.val other.val)

/-- `operator*=` (detail/short_vec_sse_double_2.hpp:138-142) -/
def opMulAssign (E : FEnv) (self : V) (other : V) : V :=
  let val : M128d := _mm_mul_pd E self.val other.val
  ⟨val⟩

/-- `operator*` (detail/short_vec_sse_double_2.hpp:144-149) -/
def opMul (E : FEnv) (self : V) (other : V) : V := ofRegs E (_mm_mul_pd E self.val other.val)

/-- `operator/=` (detail/short_vec_sse_double_2.hpp:151-155) -/
def opDivAssign (E : FEnv) (self : V) (other : V) : V :=
  let val : M128d := _mm_div_pd E self.val other.val
  ⟨val⟩

/-- `operator/` (detail/short_vec_sse_double_2.hpp:157-162) -/
def opDiv (E : FEnv) (self : V) (other : V) : V := ofRegs E (_mm_div_pd E self.val other.val)

/-- `operator<` (detail/short_vec_sse_double_2.hpp:164-169) -/
def opLt (E : FEnv) (self : V) (other : V) : V := ofRegs E (_mm_cmplt_pd E self.val other.val)

/-- `operator<=` (detail/short_vec_sse_double_2.hpp:171-176) -/
def opLe (E : FEnv) (self : V) (other : V) : V := ofRegs E (_mm_cmple_pd E self.val other.val)

/-- `operator==` (detail/short_vec_sse_double_2.hpp:178-183) -/
def opEq (E : FEnv) (self : V) (other : V) : V := ofRegs E (_mm_cmpeq_pd E self.val other.val)

/-- `operator>` (detail/short_vec_sse_double_2.hpp:185-190) -/
def opGt (E : FEnv) (self : V) (other : V) : V := ofRegs E (_mm_cmpgt_pd E self.val other.val)

/-- `operator>=` (detail/short_vec_sse_double_2.hpp:192-197) -/
def opGe (E : FEnv) (self : V) (other : V) : V := ofRegs E (_mm_cmpge_pd E self.val other.val)

/-- `load_aligned` (detail/short_vec_sse_double_2.hpp:212-217) -/
def load_aligned (E : FEnv) (m : Mem 64) (self : V) (data : Int) : Option V := do
  assertAligned 8 data 16
  let t1 ← _mm_load_pd m data
  let val : M128d := t1
  some ⟨val⟩

/-- `store_aligned` (detail/short_vec_sse_double_2.hpp:225-230) -/
def store_aligned (E : FEnv) (self : V) (data : Int) : Option (Writes 64) := do
  assertAligned 8 data 16
  let w1 ← _mm_store_pd (data + 0) self.val
  some w1

/-- `store_nt` (detail/short_vec_sse_double_2.hpp:232-237) -/
def store_nt (E : FEnv) (self : V) (data : Int) : Option (Writes 64) := do
  assertAligned 8 data 16
  let w1 ← _mm_stream_pd (data + 0) self.val
  some w1

/-- `gather` (detail/short_vec_sse_double_2.hpp:239-244) -/
def gather (E : FEnv) (m : Mem 64) (mo : Mem 32) (self : V) (ptr : Int) (offsets : Int) : Option V := do
  let t1 ← mo (offsets + 0)
  let t2 ← _mm_loadl_pd m self.val (ptr + t1.toInt)
  let val : M128d := t2
  let t3 ← mo (offsets + 1)
  let t4 ← _mm_loadh_pd m val (ptr + t3.toInt)
  let val : M128d := t4
  some ⟨val⟩

/-- `scatter` (detail/short_vec_sse_double_2.hpp:246-251) -/
def scatter (E : FEnv) (mo : Mem 32) (self : V) (ptr : Int) (offsets : Int) : Option (Writes 64) := do
  let t1 ← mo (offsets + 0)
  let w2 ← _mm_storel_pd (ptr + t1.toInt) self.val
  let t3 ← mo (offsets + 1)
  let w4 ← _mm_storeh_pd (ptr + t3.toInt) self.val
  some (w2 ++ w4)

/-- `blend` (detail/short_vec_sse_double_2.hpp:253-263; avx512f, avx, avx2, sse41) -/
def blend_avx512f (E : FEnv) (self : V) (mask : Mask) (other : V) : V :=
  let val : M128d := _mm_blendv_pd self.val other.val mask.val
  ⟨val⟩

/-- `blend` (detail/short_vec_sse_double_2.hpp:253-263; sse, sse2) -/
def blend_sse (E : FEnv) (self : V) (mask : Mask) (other : V) : V :=
  let val : M128d := _mm_or_pd (_mm_and_pd mask.val other.val) (_mm_andnot_pd mask.val self.val)
  ⟨val⟩

/-- `operator<<`, free function (detail/short_vec_sse_double_2.hpp:273-277) -/
def opStore (E : FEnv) (data : Int) (vec : V) : Option (Writes 64) := do
  let w1 ← store E vec data
  some w1

/-- `sqrt`, free function (detail/short_vec_sse_double_2.hpp:279-283) -/
def sqrtFn (E : FEnv) (vec : V) : V := sqrt E vec

/-- `operator<<`, free function (detail/short_vec_sse_double_2.hpp:285-293) -/
def print (E : FEnv) (vec : V) : List (Out 64) := [.s "[", .v vec.val.x0, .s ", ", .v vec.val.x1, .s "]"]

end LFA.SV.SseDouble2

namespace LFA.SV.SseDouble4

/-- members of `short_vec<double, 4>` (detail/short_vec_sse_double_4.hpp:49) -/
structure V where
  val0 : M128d
  val1 : M128d

/-- lanes, from low to high -/
def V.lanes (v : V) : List (BitVec 64) := SV.lanes v.val0 ++ (SV.lanes v.val1)

/-- `mask_type` -/
abbrev Mask := V

/-- constructor (detail/short_vec_sse_double_4.hpp:61-65) -/
def bcast (E : FEnv) (data : BitVec 64) : V := ⟨_mm_set1_pd data, _mm_set1_pd data⟩

/-- constructor (detail/short_vec_sse_double_4.hpp:73-77) -/
def ofRegs (E : FEnv) (val1 : M128d) (val2 : M128d) : V := ⟨val1, val2⟩

/-- `load` (detail/short_vec_sse_double_4.hpp:225-230) -/
def load (E : FEnv) (m : Mem 64) (self : V) (data : Int) : Option V := do
  let t1 ← _mm_loadu_pd m (data + 0)
  let val0 : M128d := t1
  let t2 ← _mm_loadu_pd m (data + 2)
  let val1 : M128d := t2
  some ⟨val0, val1⟩

/-- `store` (detail/short_vec_sse_double_4.hpp:240-245) -/
def store (E : FEnv) (self : V) (data : Int) : Option (Writes 64) := do
  let w1 ← _mm_storeu_pd (data + 0) self.val0
  let w2 ← _mm_storeu_pd (data + 2) self.val1
  some (w1 ++ w2)

/-- `sqrt` (detail/short_vec_sse_double_4.hpp:217-223) -/
def sqrt (E : FEnv) (self : V) : V := ofRegs E (_mm_sqrt_pd E self.val0) (_mm_sqrt_pd E self.val1)

/-- constructor (detail/short_vec_sse_double_4.hpp:67-71) -/
def ofPtr (E : FEnv) (m : Mem 64) (data : Int) : Option V := do
  let v1 ← load E m ⟨(uninit : M128d), (uninit : M128d)⟩ data
  some ⟨v1.val0, v1.val1⟩

/-- constructor (detail/short_vec_sse_double_4.hpp:80-85) -/
def ofList (E : FEnv) (m : Mem 64) (il : Int) : Option V := do
  let v1 ← load E m ⟨(uninit : M128d), (uninit : M128d)⟩ il
  some ⟨v1.val0, v1.val1⟩

/-- `any` (detail/short_vec_sse_double_4.hpp:88-101; sse, sse2) -/
def any_sse (E : FEnv) (self : V) : Bool :=
  let buf1 : M128d := _mm_or_pd self.val0 self.val1
  let buf2 : M128d := _mm_shuffle_pd buf1 buf1 1
  (truthy (_mm_cvtsd_f64 buf1)) || (truthy (_mm_cvtsd_f64 buf2))

/-- `any` (detail/short_vec_sse_double_4.hpp:88-101; sse41) -/
def any_sse41 (E : FEnv) (self : V) : Bool :=
  let buf1 : M128d := _mm_or_pd self.val0 self.val1
  (0 : BitVec 32) == (_mm_testz_si128 (_mm_castpd_si128 buf1) (_mm_castpd_si128 buf1))

/-- `operator[]` (detail/short_vec_sse_double_4.hpp:103-115) -/
def opIndex (E : FEnv) (self : V) (i : BitVec 32) : Option (BitVec 64) := do
  let t1 ← dyn [self.val0, self.val1] (i.sshiftRight 1)
  let buf : M128d := t1
  let i : BitVec 32 := i &&& (1 : BitVec 32)
  if i == (0 : BitVec 32) then do
    some (_mm_cvtsd_f64 buf)
  else do
    let buf : M128d := _mm_shuffle_pd buf buf 1
    some (_mm_cvtsd_f64 buf)

/-- `operator-=` (detail/short_vec_sse_double_4.hpp:117-122) -/
def opSubAssign (E : FEnv) (self : V) (other : V) : V :=
  let val0 : M128d := _mm_sub_pd E self.val0 other.val0
  let val1 : M128d := _mm_sub_pd E self.val1 other.val1
  ⟨val0, val1⟩

/-- `operator-` (detail/short_vec_sse_double_4.hpp:124-130) -/
def opSub (E : FEnv) (self : V) (other : V) : V :=
  ofRegs E (_mm_sub_pd E self.val0 other.val0) (_mm_sub_pd E self.val1 other.val1)

/-- `operator+=` (detail/short_vec_sse_double_4.hpp:132-137) -/
def opAddAssign (E : FEnv) (self : V) (other : V) : V :=
  let val0 : M128d := _mm_add_pd E self.val0 other.val0
  let val1 : M128d := _mm_add_pd E self.val1 other.val1
  ⟨val0, val1⟩

/-- `operator+` (detail/short_vec_sse_double_4.hpp:139-145) -/
def opAdd (E : FEnv) (self : V) (other : V) : V :=
  ofRegs E (_mm_add_pd E self.val0 other.val0) (_mm_add_pd E self.val1 other.val1)

/-- `operator*=` (detail/short_vec_sse_double_4.hpp:147-152) -/
def opMulAssign (E : FEnv) (self : V) (other : V) : V :=
  let val0 : M128d := _mm_mul_pd E self.val0 other.val0
  let val1 : M128d := _mm_mul_pd E self.val1 other.val1
  ⟨val0, val1⟩

/-- `operator*` (detail/short_vec_sse_double_4.hpp:154-160) -/
def opMul (E : FEnv) (self : V) (other : V) : V :=
  ofRegs E (_mm_mul_pd E self.val0 other.val0) (_mm_mul_pd E self.val1 other.val1)

/-- `operator/=` (detail/short_vec_sse_double_4.hpp:162-167) -/
def opDivAssign (E : FEnv) (self : V) (other : V) : V :=
  let val0 : M128d := _mm_div_pd E self.val0 other.val0
  let val1 : M128d := _mm_div_pd E self.val1 other.val1
  ⟨val0, val1⟩

/-- `operator/` (detail/short_vec_sse_double_4.hpp:169-175) -/
def opDiv (E : FEnv) (self : V) (other : V) : V :=
  ofRegs E (_mm_div_pd E self.val0 other.val0) (_mm_div_pd E self.val1 other.val1)

/-- `operator<` (detail/short_vec_sse_double_4.hpp:177-183) -/
def opLt (E : FEnv) (self : V) (other : V) : V :=
  ofRegs E (_mm_cmplt_pd E self.val0 other.val0) (_mm_cmplt_pd E self.val1 other.val1)

/-- `operator<=` (detail/short_vec_sse_double_4.hpp:185-191) -/
def opLe (E : FEnv) (self : V) (other : V) : V :=
  ofRegs E (_mm_cmple_pd E self.val0 other.val0) (_mm_cmple_pd E self.val1 other.val1)

/-- `operator==` (detail/short_vec_sse_double_4.hpp:193-199) -/
def opEq (E : FEnv) (self : V) (other : V) : V :=
  ofRegs E (_mm_cmpeq_pd E self.val0 other.val0) (_mm_cmpeq_pd E self.val1 other.val1)

/-- `operator>` (detail/short_vec_sse_double_4.hpp:201-207) -/
def opGt (E : FEnv) (self : V) (other : V) : V :=
  ofRegs E (_mm_cmpgt_pd E self.val0 other.val0) (_mm_cmpgt_pd E self.val1 other.val1)

/-- `operator>=` (detail/short_vec_sse_double_4.hpp:209-215) -/
def opGe (E : FEnv) (self : V) (other : V) : V :=
  ofRegs E (_mm_cmpge_pd E self.val0 other.val0) (_mm_cmpge_pd E self.val1 other.val1)

/-- `load_aligned` (detail/short_vec_sse_double_4.hpp:232-238) -/
def load_aligned (E : FEnv) (m : Mem 64) (self : V) (data : Int) : Option V := do
  assertAligned 8 data 16
  let t1 ← _mm_load_pd m (data + 0)
  let val0 : M128d := t1
  let t2 ← _mm_load_pd m (data + 2)
  let val1 : M128d := t2
  some ⟨val0, val1⟩

/-- `store_aligned` (detail/short_vec_sse_double_4.hpp:247-253) -/
def store_aligned (E : FEnv) (self : V) (data : Int) : Option (Writes 64) := do
  assertAligned 8 data 16
  let w1 ← _mm_store_pd (data + 0) self.val0
  let w2 ← _mm_store_pd (data + 2) self.val1
  some (w1 ++ w2)

/-- `store_nt` (detail/short_vec_sse_double_4.hpp:255-261) -/
def store_nt (E : FEnv) (self : V) (data : Int) : Option (Writes 64) := do
  assertAligned 8 data 16
  let w1 ← _mm_stream_pd (data + 0) self.val0
  let w2 ← _mm_stream_pd (data + 2) self.val1
  some (w1 ++ w2)

/-- `gather` (detail/short_vec_sse_double_4.hpp:263-270) -/
def gather (E : FEnv) (m : Mem 64) (mo : Mem 32) (self : V) (ptr : Int) (offsets : Int) : Option V := do
  let t1 ← mo (offsets + 0)
  let t2 ← _mm_loadl_pd m self.val0 (ptr + t1.toInt)
  let val0 : M128d := t2
  let t3 ← mo (offsets + 1)
  let t4 ← _mm_loadh_pd m val0 (ptr + t3.toInt)
  let val0 : M128d := t4
  let t5 ← mo (offsets + 2)
  let t6 ← _mm_loadl_pd m self.val1 (ptr + t5.toInt)
  let val1 : M128d := t6
  let t7 ← mo (offsets + 3)
  let t8 ← _mm_loadh_pd m val1 (ptr + t7.toInt)
  let val1 : M128d := t8
  some ⟨val0, val1⟩

/-- `scatter` (detail/short_vec_sse_double_4.hpp:272-279) -/
def scatter (E : FEnv) (mo : Mem 32) (self : V) (ptr : Int) (offsets : Int) : Option (Writes 64) := do
  let t1 ← mo (offsets + 0)
  let w2 ← _mm_storel_pd (ptr + t1.toInt) self.val0
  let t3 ← mo (offsets + 1)
  let w4 ← _mm_storeh_pd (ptr + t3.toInt) self.val0
  let t5 ← mo (offsets + 2)
  let w6 ← _mm_storel_pd (ptr + t5.toInt) self.val1
  let t7 ← mo (offsets + 3)
  let w8 ← _mm_storeh_pd (ptr + t7.toInt) self.val1
  some (w2 ++ w4 ++ w6 ++ w8)

/-- `blend` (detail/short_vec_sse_double_4.hpp:281-295; sse, sse2) -/
def blend_sse (E : FEnv) (self : V) (mask : Mask) (other : V) : V :=
  let val0 : M128d := _mm_or_pd (_mm_and_pd mask.val0 other.val0) (_mm_andnot_pd mask.val0 self.val0)
  let val1 : M128d := _mm_or_pd (_mm_and_pd mask.val1 other.val1) (_mm_andnot_pd mask.val1 self.val1)
  ⟨val0, val1⟩

/-- `blend` (detail/short_vec_sse_double_4.hpp:281-295; sse41) -/
def blend_sse41 (E : FEnv) (self : V) (mask : Mask) (other : V) : V :=
  let val0 : M128d := _mm_blendv_pd self.val0 other.val0 mask.val0
  let val1 : M128d := _mm_blendv_pd self.val1 other.val1 mask.val1
  ⟨val0, val1⟩

/-- `operator<<`, free function (detail/short_vec_sse_double_4.hpp:305-309) -/
def opStore (E : FEnv) (data : Int) (vec : V) : Option (Writes 64) := do
  let w1 ← store E vec data
  some w1

/-- `sqrt`, free function (detail/short_vec_sse_double_4.hpp:311-315) -/
def sqrtFn (E : FEnv) (vec : V) : V := sqrt E vec

/-- `operator<<`, free function (detail/short_vec_sse_double_4.hpp:317-326) -/
def print (E : FEnv) (vec : V) : List (Out 64) :=
  [.s "[", .v vec.val0.x0, .s ", ", .v vec.val0.x1, .s ", ", .v vec.val1.x0, .s ", ", .v vec.val1.x1, .s "]"]

end LFA.SV.SseDouble4

namespace LFA.SV.SseDouble8

/-- members of `short_vec<double, 8>` (detail/short_vec_sse_double_8.hpp:48) -/
structure V where
  val0 : M128d
  val1 : M128d
  val2 : M128d
  val3 : M128d

/-- lanes, from low to high -/
def V.lanes (v : V) : List (BitVec 64) := SV.lanes v.val0 ++ (SV.lanes v.val1 ++ (SV.lanes v.val2 ++ (SV.lanes v.val3)))

/-- `mask_type` -/
abbrev Mask := V

/-- constructor (detail/short_vec_sse_double_8.hpp:60-66) -/
def bcast (E : FEnv) (data : BitVec 64) : V :=
  ⟨_mm_set1_pd data, _mm_set1_pd data, _mm_set1_pd data, _mm_set1_pd data⟩

/-- constructor (detail/short_vec_sse_double_8.hpp:74-80) -/
def ofRegs (E : FEnv) (val1 : M128d) (val2 : M128d) (val3 : M128d) (val4 : M128d) : V := ⟨val1, val2, val3, val4⟩

/-- `load` (detail/short_vec_sse_double_8.hpp:260-267) -/
def load (E : FEnv) (m : Mem 64) (self : V) (data : Int) : Option V := do
  let t1 ← _mm_loadu_pd m (data + 0)
  let val0 : M128d := t1
  let t2 ← _mm_loadu_pd m (data + 2)
  let val1 : M128d := t2
  let t3 ← _mm_loadu_pd m (data + 4)
  let val2 : M128d := t3
  let t4 ← _mm_loadu_pd m (data + 6)
  let val3 : M128d := t4
  some ⟨val0, val1, val2, val3⟩

/-- `store` (detail/short_vec_sse_double_8.hpp:279-286) -/
def store (E : FEnv) (self : V) (data : Int) : Option (Writes 64) := do
  let w1 ← _mm_storeu_pd (data + 0) self.val0
  let w2 ← _mm_storeu_pd (data + 2) self.val1
  let w3 ← _mm_storeu_pd (data + 4) self.val2
  let w4 ← _mm_storeu_pd (data + 6) self.val3
  some (w1 ++ w2 ++ w3 ++ w4)

/-- `sqrt` (detail/short_vec_sse_double_8.hpp:250-258) -/
def sqrt (E : FEnv) (self : V) : V :=
  ofRegs E (_mm_sqrt_pd E self.val0) (_mm_sqrt_pd E self.val1) (_mm_sqrt_pd E self.val2) (_mm_sqrt_pd E self.val3)

/-- constructor (detail/short_vec_sse_double_8.hpp:68-72) -/
def ofPtr (E : FEnv) (m : Mem 64) (data : Int) : Option V := do
  let v1 ← load E m ⟨(uninit : M128d), (uninit : M128d), (uninit : M128d), (uninit : M128d)⟩ data
  some ⟨v1.val0, v1.val1, v1.val2, v1.val3⟩

/-- constructor (detail/short_vec_sse_double_8.hpp:83-88) -/
def ofList (E : FEnv) (m : Mem 64) (il : Int) : Option V := do
  let v1 ← load E m ⟨(uninit : M128d), (uninit : M128d), (uninit : M128d), (uninit : M128d)⟩ il
  some ⟨v1.val0, v1.val1, v1.val2, v1.val3⟩

/-- `any` (detail/short_vec_sse_double_8.hpp:91-105; sse, sse2) -/
def any_sse (E : FEnv) (self : V) : Bool :=
  let buf1 : M128d := _mm_or_pd (_mm_or_pd self.val0 self.val1) (_mm_or_pd self.val2 self.val3)
  let buf2 : M128d := _mm_shuffle_pd buf1 buf1 1
  (truthy (_mm_cvtsd_f64 buf1)) || (truthy (_mm_cvtsd_f64 buf2))

/-- `any` (detail/short_vec_sse_double_8.hpp:91-105; sse41) -/
def any_sse41 (E : FEnv) (self : V) : Bool :=
  let buf1 : M128d := _mm_or_pd (_mm_or_pd self.val0 self.val1) (_mm_or_pd self.val2 self.val3)
  (0 : BitVec 32) == (_mm_testz_si128 (_mm_castpd_si128 buf1) (_mm_castpd_si128 buf1))

/-- `operator[]` (detail/short_vec_sse_double_8.hpp:107-119) -/
def opIndex (E : FEnv) (self : V) (i : BitVec 32) : Option (BitVec 64) := do
  let t1 ← dyn [self.val0, self.val1, self.val2, self.val3] (i.sshiftRight 1)
  let buf : M128d := t1
  let i : BitVec 32 := i &&& (1 : BitVec 32)
  if i == (0 : BitVec 32) then do
    some (_mm_cvtsd_f64 buf)
  else do
    let buf : M128d := _mm_shuffle_pd buf buf 1
    some (_mm_cvtsd_f64 buf)

/-- `operator-=` (detail/short_vec_sse_double_8.hpp:121-128) -/
def opSubAssign (E : FEnv) (self : V) (other : V) : V :=
  let val0 : M128d := _mm_sub_pd E self.val0 other.val0
  let val1 : M128d := _mm_sub_pd E self.val1 other.val1
  let val2 : M128d := _mm_sub_pd E self.val2 other.val2
  let val3 : M128d := _mm_sub_pd E self.val3 other.val3
  ⟨val0, val1, val2, val3⟩

/-- `operator-` (detail/short_vec_sse_double_8.hpp:130-138) -/
def opSub (E : FEnv) (self : V) (other : V) : V :=
  ofRegs E (_mm_sub_pd E self.val0 other.val0) (_mm_sub_pd E self.val1 other.val1) (_mm_sub_pd E self.val2 other.val2)
      (_mm_sub_pd E self.val3 other.val3)

/-- `operator+=` (detail/short_vec_sse_double_8.hpp:140-147) -/
def opAddAssign (E : FEnv) (self : V) (other : V) : V :=
  let val0 : M128d := _mm_add_pd E self.val0 other.val0
  let val1 : M128d := _mm_add_pd E self.val1 other.val1
  let val2 : M128d := _mm_add_pd E self.val2 other.val2
  let val3 : M128d := _mm_add_pd E self.val3 other.val3
  ⟨val0, val1, val2, val3⟩

/-- `operator+` (detail/short_vec_sse_double_8.hpp:149-157) -/
def opAdd (E : FEnv) (self : V) (other : V) : V :=
  ofRegs E (_mm_add_pd E self.val0 other.val0) (_mm_add_pd E self.val1 other.val1) (_mm_add_pd E self.val2 other.val2)
      (_mm_add_pd E self.val3 other.val3)

/-- `operator*=` (detail/short_vec_sse_double_8.hpp:159-166) -/
def opMulAssign (E : FEnv) (self : V) (other : V) : V :=
  let val0 : M128d := _mm_mul_pd E self.val0 other.val0
  let val1 : M128d := _mm_mul_pd E self.val1 other.val1
  let val2 : M128d := _mm_mul_pd E self.val2 other.val2
  let val3 : M128d := _mm_mul_pd E self.val3 other.val3
  ⟨val0, val1, val2, val3⟩

/-- `operator*` (detail/short_vec_sse_double_8.hpp:168-176) -/
def opMul (E : FEnv) (self : V) (other : V) : V :=
  ofRegs E (_mm_mul_pd E self.val0 other.val0) (_mm_mul_pd E self.val1 other.val1) (_mm_mul_pd E self.val2 other.val2)
      (_mm_mul_pd E self.val3 other.val3)

/-- `operator/=` (detail/short_vec_sse_double_8.hpp:178-185) -/
def opDivAssign (E : FEnv) (self : V) (other : V) : V :=
  let val0 : M128d := _mm_div_pd E self.val0 other.val0
  let val1 : M128d := _mm_div_pd E self.val1 other.val1
  let val2 : M128d := _mm_div_pd E self.val2 other.val2
  let val3 : M128d := _mm_div_pd E self.val3 other.val3
  ⟨val0, val1, val2, val3⟩

/-- `operator/` (detail/short_vec_sse_double_8.hpp:187-195) -/
def opDiv (E : FEnv) (self : V) (other : V) : V :=
  ofRegs E (_mm_div_pd E self.val0 other.val0) (_mm_div_pd E self.val1 other.val1) (_mm_div_pd E self.val2 other.val2)
      (_mm_div_pd E self.val3 other.val3)

/-- `operator<` (detail/short_vec_sse_double_8.hpp:200-208) -/
def opLt (E : FEnv) (self : V) (other : V) : V :=
  ofRegs E (_mm_cmplt_pd E self.val0 other.val0) (_mm_cmplt_pd E self.val1 other.val1) (_mm_cmplt_pd E self.val2 other.val2)
      (_mm_cmplt_pd E self.val3 other.val3)

/-- `operator<=` (detail/short_vec_sse_double_8.hpp:210-218) -/
def opLe (E : FEnv) (self : V) (other : V) : V :=
  ofRegs E (_mm_cmple_pd E self.val0 other.val0) (_mm_cmple_pd E self.val1 other.val1) (_mm_cmple_pd E self.val2 other.val2)
      (_mm_cmple_pd E self.val3 other.val3)

/-- `operator==` (detail/short_vec_sse_double_8.hpp:220-228) -/
def opEq (E : FEnv) (self : V) (other : V) : V :=
  ofRegs E (_mm_cmpeq_pd E self.val0 other.val0) (_mm_cmpeq_pd E self.val1 other.val1) (_mm_cmpeq_pd E self.val2 other.val2)
      (_mm_cmpeq_pd E self.val3 other.val3)

/-- `operator>` (detail/short_vec_sse_double_8.hpp:230-238) -/
def opGt (E : FEnv) (self : V) (other : V) : V :=
  ofRegs E (_mm_cmpgt_pd E self.val0 other.val0) (_mm_cmpgt_pd E self.val1 other.val1) (_mm_cmpgt_pd E self.val2 other.val2)
      (_mm_cmpgt_pd E self.val3 other.val3)

/-- `operator>=` (detail/short_vec_sse_double_8.hpp:240-248) -/
def opGe (E : FEnv) (self : V) (other : V) : V :=
  ofRegs E (_mm_cmpge_pd E self.val0 other.val0) (_mm_cmpge_pd E self.val1 other.val1) (_mm_cmpge_pd E self.val2 other.val2)
      (_mm_cmpge_pd E self.val3 other.val3)

/-- `load_aligned` (detail/short_vec_sse_double_8.hpp:269-277) -/
def load_aligned (E : FEnv) (m : Mem 64) (self : V) (data : Int) : Option V := do
  assertAligned 8 data 16
  let t1 ← _mm_load_pd m (data + 0)
  let val0 : M128d := t1
  let t2 ← _mm_load_pd m (data + 2)
  let val1 : M128d := t2
  let t3 ← _mm_load_pd m (data + 4)
  let val2 : M128d := t3
  let t4 ← _mm_load_pd m (data + 6)
  let val3 : M128d := t4
  some ⟨val0, val1, val2, val3⟩

/-- `store_aligned` (detail/short_vec_sse_double_8.hpp:288-296) -/
def store_aligned (E : FEnv) (self : V) (data : Int) : Option (Writes 64) := do
  assertAligned 8 data 16
  let w1 ← _mm_store_pd (data + 0) self.val0
  let w2 ← _mm_store_pd (data + 2) self.val1
  let w3 ← _mm_store_pd (data + 4) self.val2
  let w4 ← _mm_store_pd (data + 6) self.val3
  some (w1 ++ w2 ++ w3 ++ w4)

/-- `store_nt` (detail/short_vec_sse_double_8.hpp:298-306) -/
def store_nt (E : FEnv) (self : V) (data : Int) : Option (Writes 64) := do
  assertAligned 8 data 16
  let w1 ← _mm_stream_pd (data + 0) self.val0
  let w2 ← _mm_stream_pd (data + 2) self.val1
  let w3 ← _mm_stream_pd (data + 4) self.val2
  let w4 ← _mm_stream_pd (data + 6) self.val3
  some (w1 ++ w2 ++ w3 ++ w4)

/-- `gather` (detail/short_vec_sse_double_8.hpp:308-319) -/
def gather (E : FEnv) (m : Mem 64) (mo : Mem 32) (self : V) (ptr : Int) (offsets : Int) : Option V := do
  let t1 ← mo (offsets + 0)
  let t2 ← _mm_loadl_pd m self.val0 (ptr + t1.toInt)
  let val0 : M128d := t2
  let t3 ← mo (offsets + 1)
  let t4 ← _mm_loadh_pd m val0 (ptr + t3.toInt)
  let val0 : M128d := t4
  let t5 ← mo (offsets + 2)
  let t6 ← _mm_loadl_pd m self.val1 (ptr + t5.toInt)
  let val1 : M128d := t6
  let t7 ← mo (offsets + 3)
  let t8 ← _mm_loadh_pd m val1 (ptr + t7.toInt)
  let val1 : M128d := t8
  let t9 ← mo (offsets + 4)
  let t10 ← _mm_loadl_pd m self.val2 (ptr + t9.toInt)
  let val2 : M128d := t10
  let t11 ← mo (offsets + 5)
  let t12 ← _mm_loadh_pd m val2 (ptr + t11.toInt)
  let val2 : M128d := t12
  let t13 ← mo (offsets + 6)
  let t14 ← _mm_loadl_pd m self.val3 (ptr + t13.toInt)
  let val3 : M128d := t14
  let t15 ← mo (offsets + 7)
  let t16 ← _mm_loadh_pd m val3 (ptr + t15.toInt)
  let val3 : M128d := t16
  some ⟨val0, val1, val2, val3⟩

/-- `scatter` (detail/short_vec_sse_double_8.hpp:321-332) -/
def scatter (E : FEnv) (mo : Mem 32) (self : V) (ptr : Int) (offsets : Int) : Option (Writes 64) := do
  let t1 ← mo (offsets + 0)
  let w2 ← _mm_storel_pd (ptr + t1.toInt) self.val0
  let t3 ← mo (offsets + 1)
  let w4 ← _mm_storeh_pd (ptr + t3.toInt) self.val0
  let t5 ← mo (offsets + 2)
  let w6 ← _mm_storel_pd (ptr + t5.toInt) self.val1
  let t7 ← mo (offsets + 3)
  let w8 ← _mm_storeh_pd (ptr + t7.toInt) self.val1
  let t9 ← mo (offsets + 4)
  let w10 ← _mm_storel_pd (ptr + t9.toInt) self.val2
  let t11 ← mo (offsets + 5)
  let w12 ← _mm_storeh_pd (ptr + t11.toInt) self.val2
  let t13 ← mo (offsets + 6)
  let w14 ← _mm_storel_pd (ptr + t13.toInt) self.val3
  let t15 ← mo (offsets + 7)
  let w16 ← _mm_storeh_pd (ptr + t15.toInt) self.val3
  some (w2 ++ w4 ++ w6 ++ w8 ++ w10 ++ w12 ++ w14 ++ w16)

/-- `blend` (detail/short_vec_sse_double_8.hpp:334-356; sse, sse2) -/
def blend_sse (E : FEnv) (self : V) (mask : Mask) (other : V) : V :=
  let val0 : M128d := _mm_or_pd (_mm_and_pd mask.val0 other.val0) (_mm_andnot_pd mask.val0 self.val0)
  let val1 : M128d := _mm_or_pd (_mm_and_pd mask.val1 other.val1) (_mm_andnot_pd mask.val1 self.val1)
  let val2 : M128d := _mm_or_pd (_mm_and_pd mask.val2 other.val2) (_mm_andnot_pd mask.val2 self.val2)
  let val3 : M128d := _mm_or_pd (_mm_and_pd mask.val3 other.val3) (_mm_andnot_pd mask.val3 self.val3)
  ⟨val0, val1, val2, val3⟩

/-- `blend` (detail/short_vec_sse_double_8.hpp:334-356; sse41) -/
def blend_sse41 (E : FEnv) (self : V) (mask : Mask) (other : V) : V :=
  let val0 : M128d := _mm_blendv_pd self.val0 other.val0 mask.val0
  let val1 : M128d := _mm_blendv_pd self.val1 other.val1 mask.val1
  let val2 : M128d := _mm_blendv_pd self.val2 other.val2 mask.val2
  let val3 : M128d := _mm_blendv_pd self.val3 other.val3 mask.val3
  ⟨val0, val1, val2, val3⟩

/-- `operator<<`, free function (detail/short_vec_sse_double_8.hpp:366-370) -/
def opStore (E : FEnv) (data : Int) (vec : V) : Option (Writes 64) := do
  let w1 ← store E vec data
  some w1

/-- `sqrt`, free function (detail/short_vec_sse_double_8.hpp:372-376) -/
def sqrtFn (E : FEnv) (vec : V) : V := sqrt E vec

/-- `operator<<`, free function (detail/short_vec_sse_double_8.hpp:378-393) -/
def print (E : FEnv) (vec : V) : List (Out 64) :=
  [.s "[", .v vec.val0.x0, .s ", ", .v vec.val0.x1, .s ", ", .v vec.val1.x0, .s ", ", .v vec.val1.x1, .s ", ", .v vec.val2.x0,
      .s ", ", .v vec.val2.x1, .s ", ", .v vec.val3.x0, .s ", ", .v vec.val3.x1, .s "]"]

end LFA.SV.SseDouble8

namespace LFA.SV.SseDouble16

/-- members of `short_vec<double, 16>` (detail/short_vec_sse_double_16.hpp:48) -/
structure V where
  val0 : M128d
  val1 : M128d
  val2 : M128d
  val3 : M128d
  val4 : M128d
  val5 : M128d
  val6 : M128d
  val7 : M128d

/-- lanes, from low to high -/
def V.lanes (v : V) : List (BitVec 64) := SV.lanes v.val0 ++ (SV.lanes v.val1 ++ (SV.lanes v.val2 ++ (SV.lanes v.val3 ++
    (SV.lanes v.val4 ++ (SV.lanes v.val5 ++ (SV.lanes v.val6 ++ (SV.lanes v.val7)))))))

/-- `mask_type` -/
abbrev Mask := V

/-- constructor (detail/short_vec_sse_double_16.hpp:60-70) -/
def bcast (E : FEnv) (data : BitVec 64) : V :=
  ⟨_mm_set1_pd data, _mm_set1_pd data, _mm_set1_pd data, _mm_set1_pd data, _mm_set1_pd data, _mm_set1_pd data, _mm_set1_pd
      data, _mm_set1_pd data⟩

/-- constructor (detail/short_vec_sse_double_16.hpp:78-96) -/
def ofRegs (E : FEnv) (val1 : M128d) (val2 : M128d) (val3 : M128d) (val4 : M128d) (val5 : M128d) (val6 : M128d) (val7 : M128d)
    (val8 : M128d) : V :=
  ⟨val1, val2, val3, val4, val5, val6, val7, val8⟩

/-- `load` (detail/short_vec_sse_double_16.hpp:337-348) -/
def load (E : FEnv) (m : Mem 64) (self : V) (data : Int) : Option V := do
  let t1 ← _mm_loadu_pd m (data + 0)
  let val0 : M128d := t1
  let t2 ← _mm_loadu_pd m (data + 2)
  let val1 : M128d := t2
  let t3 ← _mm_loadu_pd m (data + 4)
  let val2 : M128d := t3
  let t4 ← _mm_loadu_pd m (data + 6)
  let val3 : M128d := t4
  let t5 ← _mm_loadu_pd m (data + 8)
  let val4 : M128d := t5
  let t6 ← _mm_loadu_pd m (data + 10)
  let val5 : M128d := t6
  let t7 ← _mm_loadu_pd m (data + 12)
  let val6 : M128d := t7
  let t8 ← _mm_loadu_pd m (data + 14)
  let val7 : M128d := t8
  some ⟨val0, val1, val2, val3, val4, val5, val6, val7⟩

/-- `store` (detail/short_vec_sse_double_16.hpp:364-375) -/
def store (E : FEnv) (self : V) (data : Int) : Option (Writes 64) := do
  let w1 ← _mm_storeu_pd (data + 0) self.val0
  let w2 ← _mm_storeu_pd (data + 2) self.val1
  let w3 ← _mm_storeu_pd (data + 4) self.val2
  let w4 ← _mm_storeu_pd (data + 6) self.val3
  let w5 ← _mm_storeu_pd (data + 8) self.val4
  let w6 ← _mm_storeu_pd (data + 10) self.val5
  let w7 ← _mm_storeu_pd (data + 12) self.val6
  let w8 ← _mm_storeu_pd (data + 14) self.val7
  some (w1 ++ w2 ++ w3 ++ w4 ++ w5 ++ w6 ++ w7 ++ w8)

/-- `sqrt` (detail/short_vec_sse_double_16.hpp:323-335) -/
def sqrt (E : FEnv) (self : V) : V :=
  ofRegs E (_mm_sqrt_pd E self.val0) (_mm_sqrt_pd E self.val1) (_mm_sqrt_pd E self.val2) (_mm_sqrt_pd E self.val3) (_mm_sqrt_pd
      E self.val4) (_mm_sqrt_pd E self.val5) (_mm_sqrt_pd E self.val6) (_mm_sqrt_pd E self.val7)

/-- constructor (detail/short_vec_sse_double_16.hpp:72-76) -/
def ofPtr (E : FEnv) (m : Mem 64) (data : Int) : Option V := do
  let v1 ← load E m ⟨(uninit : M128d), (uninit : M128d), (uninit : M128d), (uninit : M128d), (uninit : M128d), (uninit :
      M128d), (uninit : M128d), (uninit : M128d)⟩ data
  some ⟨v1.val0, v1.val1, v1.val2, v1.val3, v1.val4, v1.val5, v1.val6, v1.val7⟩

/-- constructor (detail/short_vec_sse_double_16.hpp:99-104) -/
def ofList (E : FEnv) (m : Mem 64) (il : Int) : Option V := do
  let v1 ← load E m ⟨(uninit : M128d), (uninit : M128d), (uninit : M128d), (uninit : M128d), (uninit : M128d), (uninit :
      M128d), (uninit : M128d), (uninit : M128d)⟩ il
  some ⟨v1.val0, v1.val1, v1.val2, v1.val3, v1.val4, v1.val5, v1.val6, v1.val7⟩

/-- `any` (detail/short_vec_sse_double_16.hpp:107-126; sse, sse2) -/
def any_sse (E : FEnv) (self : V) : Bool :=
  let buf1 : M128d := _mm_or_pd (_mm_or_pd (_mm_or_pd self.val0 self.val1) (_mm_or_pd self.val2 self.val3)) (_mm_or_pd
      (_mm_or_pd self.val4 self.val5) (_mm_or_pd self.val6 self.val7))
  let buf2 : M128d := _mm_shuffle_pd buf1 buf1 1
  (truthy (_mm_cvtsd_f64 buf1)) || (truthy (_mm_cvtsd_f64 buf2))

/-- `any` (detail/short_vec_sse_double_16.hpp:107-126; sse41) -/
def any_sse41 (E : FEnv) (self : V) : Bool :=
  let buf1 : M128d := _mm_or_pd (_mm_or_pd (_mm_or_pd self.val0 self.val1) (_mm_or_pd self.val2 self.val3)) (_mm_or_pd
      (_mm_or_pd self.val4 self.val5) (_mm_or_pd self.val6 self.val7))
  (0 : BitVec 32) == (_mm_testz_si128 (_mm_castpd_si128 buf1) (_mm_castpd_si128 buf1))

/-- `operator[]` (detail/short_vec_sse_double_16.hpp:128-140) -/
def opIndex (E : FEnv) (self : V) (i : BitVec 32) : Option (BitVec 64) := do
  let t1 ← dyn [self.val0, self.val1, self.val2, self.val3, self.val4, self.val5, self.val6, self.val7] (i.sshiftRight 1)
  let buf : M128d := t1
  let i : BitVec 32 := i &&& (1 : BitVec 32)
  if i == (0 : BitVec 32) then do
    some (_mm_cvtsd_f64 buf)
  else do
    let buf : M128d := _mm_shuffle_pd buf buf 1
    some (_mm_cvtsd_f64 buf)

/-- `operator-=` (detail/short_vec_sse_double_16.hpp:142-153) -/
def opSubAssign (E : FEnv) (self : V) (other : V) : V :=
  let val0 : M128d := _mm_sub_pd E self.val0 other.val0
  let val1 : M128d := _mm_sub_pd E self.val1 other.val1
  let val2 : M128d := _mm_sub_pd E self.val2 other.val2
  let val3 : M128d := _mm_sub_pd E self.val3 other.val3
  let val4 : M128d := _mm_sub_pd E self.val4 other.val4
  let val5 : M128d := _mm_sub_pd E self.val5 other.val5
  let val6 : M128d := _mm_sub_pd E self.val6 other.val6
  let val7 : M128d := _mm_sub_pd E self.val7 other.val7
  ⟨val0, val1, val2, val3, val4, val5, val6, val7⟩

/-- `operator-` (detail/short_vec_sse_double_16.hpp:155-167) -/
def opSub (E : FEnv) (self : V) (other : V) : V :=
  ofRegs E (_mm_sub_pd E self.val0 other.val0) (_mm_sub_pd E self.val1 other.val1) (_mm_sub_pd E self.val2 other.val2)
      (_mm_sub_pd E self.val3 other.val3) (_mm_sub_pd E self.val4 other.val4) (_mm_sub_pd E self.val5 other.val5) (_mm_sub_pd E
      self.val6 other.val6) (_mm_sub_pd E self.val7 other.val7)

/-- `operator+=` (detail/short_vec_sse_double_16.hpp:169-180) -/
def opAddAssign (E : FEnv) (self : V) (other : V) : V :=
  let val0 : M128d := _mm_add_pd E self.val0 other.val0
  let val1 : M128d := _mm_add_pd E self.val1 other.val1
  let val2 : M128d := _mm_add_pd E self.val2 other.val2
  let val3 : M128d := _mm_add_pd E self.val3 other.val3
  let val4 : M128d := _mm_add_pd E self.val4 other.val4
  let val5 : M128d := _mm_add_pd E self.val5 other.val5
  let val6 : M128d := _mm_add_pd E self.val6 other.val6
  let val7 : M128d := _mm_add_pd E self.val7 other.val7
  ⟨val0, val1, val2, val3, val4, val5, val6, val7⟩

/-- `operator+` (detail/short_vec_sse_double_16.hpp:182-194) -/
def opAdd (E : FEnv) (self : V) (other : V) : V :=
  ofRegs E (_mm_add_pd E self.val0 other.val0) (_mm_add_pd E self.val1 other.val1) (_mm_add_pd E self.val2 other.val2)
      (_mm_add_pd E self.val3 other.val3) (_mm_add_pd E self.val4 other.val4) (_mm_add_pd E self.val5 other.val5) (_mm_add_pd E
      self.val6 other.val6) (_mm_add_pd E self.val7 other.val7)

/-- `operator*=` (detail/short_vec_sse_double_16.hpp:196-207) -/
def opMulAssign (E : FEnv) (self : V) (other : V) : V :=
  let val0 : M128d := _mm_mul_pd E self.val0 other.val0
  let val1 : M128d := _mm_mul_pd E self.val1 other.val1
  let val2 : M128d := _mm_mul_pd E self.val2 other.val2
  let val3 : M128d := _mm_mul_pd E self.val3 other.val3
  let val4 : M128d := _mm_mul_pd E self.val4 other.val4
  let val5 : M128d := _mm_mul_pd E self.val5 other.val5
  let val6 : M128d := _mm_mul_pd E self.val6 other.val6
  let val7 : M128d := _mm_mul_pd E self.val7 other.val7
  ⟨val0, val1, val2, val3, val4, val5, val6, val7⟩

/-- `operator*` (detail/short_vec_sse_double_16.hpp:209-221) -/
def opMul (E : FEnv) (self : V) (other : V) : V :=
  ofRegs E (_mm_mul_pd E self.val0 other.val0) (_mm_mul_pd E self.val1 other.val1) (_mm_mul_pd E self.val2 other.val2)
      (_mm_mul_pd E self.val3 other.val3) (_mm_mul_pd E self.val4 other.val4) (_mm_mul_pd E self.val5 other.val5) (_mm_mul_pd E
      self.val6 other.val6) (_mm_mul_pd E self.val7 other.val7)

/-- `operator/=` (detail/short_vec_sse_double_16.hpp:223-234) -/
def opDivAssign (E : FEnv) (self : V) (other : V) : V :=
  let val0 : M128d := _mm_div_pd E self.val0 other.val0
  let val1 : M128d := _mm_div_pd E self.val1 other.val1
  let val2 : M128d := _mm_div_pd E self.val2 other.val2
  let val3 : M128d := _mm_div_pd E self.val3 other.val3
  let val4 : M128d := _mm_div_pd E self.val4 other.val4
  let val5 : M128d := _mm_div_pd E self.val5 other.val5
  let val6 : M128d := _mm_div_pd E self.val6 other.val6
  let val7 : M128d := _mm_div_pd E self.val7 other.val7
  ⟨val0, val1, val2, val3, val4, val5, val6, val7⟩

/-- `operator/` (detail/short_vec_sse_double_16.hpp:236-248) -/
def opDiv (E : FEnv) (self : V) (other : V) : V :=
  ofRegs E (_mm_div_pd E self.val0 other.val0) (_mm_div_pd E self.val1 other.val1) (_mm_div_pd E self.val2 other.val2)
      (_mm_div_pd E self.val3 other.val3) (_mm_div_pd E self.val4 other.val4) (_mm_div_pd E self.val5 other.val5) (_mm_div_pd E
      self.val6 other.val6) (_mm_div_pd E self.val7 other.val7)

/-- `operator<` (detail/short_vec_sse_double_16.hpp:253-265) -/
def opLt (E : FEnv) (self : V) (other : V) : V :=
  ofRegs E (_mm_cmplt_pd E self.val0 other.val0) (_mm_cmplt_pd E self.val1 other.val1) (_mm_cmplt_pd E self.val2 other.val2)
      (_mm_cmplt_pd E self.val3 other.val3) (_mm_cmplt_pd E self.val4 other.val4) (_mm_cmplt_pd E self.val5 other.val5)
      (_mm_cmplt_pd E self.val6 other.val6) (_mm_cmplt_pd E self.val7 other.val7)

/-- `operator<=` (detail/short_vec_sse_double_16.hpp:267-279) -/
def opLe (E : FEnv) (self : V) (other : V) : V :=
  ofRegs E (_mm_cmple_pd E self.val0 other.val0) (_mm_cmple_pd E self.val1 other.val1) (_mm_cmple_pd E self.val2 other.val2)
      (_mm_cmple_pd E self.val3 other.val3) (_mm_cmple_pd E self.val4 other.val4) (_mm_cmple_pd E self.val5 other.val5)
      (_mm_cmple_pd E self.val6 other.val6) (_mm_cmple_pd E self.val7 other.val7)

/-- `operator==` (detail/short_vec_sse_double_16.hpp:281-293) -/
def opEq (E : FEnv) (self : V) (other : V) : V :=
  ofRegs E (_mm_cmpeq_pd E self.val0 other.val0) (_mm_cmpeq_pd E self.val1 other.val1) (_mm_cmpeq_pd E self.val2 other.val2)
      (_mm_cmpeq_pd E self.val3 other.val3) (_mm_cmpeq_pd E self.val4 other.val4) (_mm_cmpeq_pd E self.val5 other.val5)
      (_mm_cmpeq_pd E self.val6 other.val6) (_mm_cmpeq_pd E self.val7 other.val7)

/-- `operator>` (detail/short_vec_sse_double_16.hpp:295-307) -/
def opGt (E : FEnv) (self : V) (other : V) : V :=
  ofRegs E (_mm_cmpgt_pd E self.val0 other.val0) (_mm_cmpgt_pd E self.val1 other.val1) (_mm_cmpgt_pd E self.val2 other.val2)
      (_mm_cmpgt_pd E self.val3 other.val3) (_mm_cmpgt_pd E self.val4 other.val4) (_mm_cmpgt_pd E self.val5 other.val5)
      (_mm_cmpgt_pd E self.val6 other.val6) (_mm_cmpgt_pd E self.val7 other.val7)

/-- `operator>=` (detail/short_vec_sse_double_16.hpp:309-321) -/
def opGe (E : FEnv) (self : V) (other : V) : V :=
  ofRegs E (_mm_cmpge_pd E self.val0 other.val0) (_mm_cmpge_pd E self.val1 other.val1) (_mm_cmpge_pd E self.val2 other.val2)
      (_mm_cmpge_pd E self.val3 other.val3) (_mm_cmpge_pd E self.val4 other.val4) (_mm_cmpge_pd E self.val5 other.val5)
      (_mm_cmpge_pd E self.val6 other.val6) (_mm_cmpge_pd E self.val7 other.val7)

/-- `load_aligned` (detail/short_vec_sse_double_16.hpp:350-362) -/
def load_aligned (E : FEnv) (m : Mem 64) (self : V) (data : Int) : Option V := do
  assertAligned 8 data 16
  let t1 ← _mm_load_pd m (data + 0)
  let val0 : M128d := t1
  let t2 ← _mm_load_pd m (data + 2)
  let val1 : M128d := t2
  let t3 ← _mm_load_pd m (data + 4)
  let val2 : M128d := t3
  let t4 ← _mm_load_pd m (data + 6)
  let val3 : M128d := t4
  let t5 ← _mm_load_pd m (data + 8)
  let val4 : M128d := t5
  let t6 ← _mm_load_pd m (data + 10)
  let val5 : M128d := t6
  let t7 ← _mm_load_pd m (data + 12)
  let val6 : M128d := t7
  let t8 ← _mm_load_pd m (data + 14)
  let val7 : M128d := t8
  some ⟨val0, val1, val2, val3, val4, val5, val6, val7⟩

/-- `store_aligned` (detail/short_vec_sse_double_16.hpp:377-389) -/
def store_aligned (E : FEnv) (self : V) (data : Int) : Option (Writes 64) := do
  assertAligned 8 data 16
  let w1 ← _mm_store_pd (data + 0) self.val0
  let w2 ← _mm_store_pd (data + 2) self.val1
  let w3 ← _mm_store_pd (data + 4) self.val2
  let w4 ← _mm_store_pd (data + 6) self.val3
  let w5 ← _mm_store_pd (data + 8) self.val4
  let w6 ← _mm_store_pd (data + 10) self.val5
  let w7 ← _mm_store_pd (data + 12) self.val6
  let w8 ← _mm_store_pd (data + 14) self.val7
  some (w1 ++ w2 ++ w3 ++ w4 ++ w5 ++ w6 ++ w7 ++ w8)

/-- `store_nt` (detail/short_vec_sse_double_16.hpp:391-403) -/
def store_nt (E : FEnv) (self : V) (data : Int) : Option (Writes 64) := do
  assertAligned 8 data 16
  let w1 ← _mm_stream_pd (data + 0) self.val0
  let w2 ← _mm_stream_pd (data + 2) self.val1
  let w3 ← _mm_stream_pd (data + 4) self.val2
  let w4 ← _mm_stream_pd (data + 6) self.val3
  let w5 ← _mm_stream_pd (data + 8) self.val4
  let w6 ← _mm_stream_pd (data + 10) self.val5
  let w7 ← _mm_stream_pd (data + 12) self.val6
  let w8 ← _mm_stream_pd (data + 14) self.val7
  some (w1 ++ w2 ++ w3 ++ w4 ++ w5 ++ w6 ++ w7 ++ w8)

/-- `gather` (detail/short_vec_sse_double_16.hpp:405-424) -/
def gather (E : FEnv) (m : Mem 64) (mo : Mem 32) (self : V) (ptr : Int) (offsets : Int) : Option V := do
  let t1 ← mo (offsets + 0)
  let t2 ← _mm_loadl_pd m self.val0 (ptr + t1.toInt)
  let val0 : M128d := t2
  let t3 ← mo (offsets + 1)
  let t4 ← _mm_loadh_pd m val0 (ptr + t3.toInt)
  let val0 : M128d := t4
  let t5 ← mo (offsets + 2)
  let t6 ← _mm_loadl_pd m self.val1 (ptr + t5.toInt)
  let val1 : M128d := t6
  let t7 ← mo (offsets + 3)
  let t8 ← _mm_loadh_pd m val1 (ptr + t7.toInt)
  let val1 : M128d := t8
  let t9 ← mo (offsets + 4)
  let t10 ← _mm_loadl_pd m self.val2 (ptr + t9.toInt)
  let val2 : M128d := t10
  let t11 ← mo (offsets + 5)
  let t12 ← _mm_loadh_pd m val2 (ptr + t11.toInt)
  let val2 : M128d := t12
  let t13 ← mo (offsets + 6)
  let t14 ← _mm_loadl_pd m self.val3 (ptr + t13.toInt)
  let val3 : M128d := t14
  let t15 ← mo (offsets + 7)
  let t16 ← _mm_loadh_pd m val3 (ptr + t15.toInt)
  let val3 : M128d := t16
  let t17 ← mo (offsets + 8)
  let t18 ← _mm_loadl_pd m self.val4 (ptr + t17.toInt)
  let val4 : M128d := t18
  let t19 ← mo (offsets + 9)
  let t20 ← _mm_loadh_pd m val4 (ptr + t19.toInt)
  let val4 : M128d := t20
  let t21 ← mo (offsets + 10)
  let t22 ← _mm_loadl_pd m self.val5 (ptr + t21.toInt)
  let val5 : M128d := t22
  let t23 ← mo (offsets + 11)
  let t24 ← _mm_loadh_pd m val5 (ptr + t23.toInt)
  let val5 : M128d := t24
  let t25 ← mo (offsets + 12)
  let t26 ← _mm_loadl_pd m self.val6 (ptr + t25.toInt)
  let val6 : M128d := t26
  let t27 ← mo (offsets + 13)
  let t28 ← _mm_loadh_pd m val6 (ptr + t27.toInt)
  let val6 : M128d := t28
  let t29 ← mo (offsets + 14)
  let t30 ← _mm_loadl_pd m self.val7 (ptr + t29.toInt)
  let val7 : M128d := t30
  let t31 ← mo (offsets + 15)
  let t32 ← _mm_loadh_pd m val7 (ptr + t31.toInt)
  let val7 : M128d := t32
  some ⟨val0, val1, val2, val3, val4, val5, val6, val7⟩

/-- `scatter` (detail/short_vec_sse_double_16.hpp:426-445) -/
def scatter (E : FEnv) (mo : Mem 32) (self : V) (ptr : Int) (offsets : Int) : Option (Writes 64) := do
  let t1 ← mo (offsets + 0)
  let w2 ← _mm_storel_pd (ptr + t1.toInt) self.val0
  let t3 ← mo (offsets + 1)
  let w4 ← _mm_storeh_pd (ptr + t3.toInt) self.val0
  let t5 ← mo (offsets + 2)
  let w6 ← _mm_storel_pd (ptr + t5.toInt) self.val1
  let t7 ← mo (offsets + 3)
  let w8 ← _mm_storeh_pd (ptr + t7.toInt) self.val1
  let t9 ← mo (offsets + 4)
  let w10 ← _mm_storel_pd (ptr + t9.toInt) self.val2
  let t11 ← mo (offsets + 5)
  let w12 ← _mm_storeh_pd (ptr + t11.toInt) self.val2
  let t13 ← mo (offsets + 6)
  let w14 ← _mm_storel_pd (ptr + t13.toInt) self.val3
  let t15 ← mo (offsets + 7)
  let w16 ← _mm_storeh_pd (ptr + t15.toInt) self.val3
  let t17 ← mo (offsets + 8)
  let w18 ← _mm_storel_pd (ptr + t17.toInt) self.val4
  let t19 ← mo (offsets + 9)
  let w20 ← _mm_storeh_pd (ptr + t19.toInt) self.val4
  let t21 ← mo (offsets + 10)
  let w22 ← _mm_storel_pd (ptr + t21.toInt) self.val5
  let t23 ← mo (offsets + 11)
  let w24 ← _mm_storeh_pd (ptr + t23.toInt) self.val5
  let t25 ← mo (offsets + 12)
  let w26 ← _mm_storel_pd (ptr + t25.toInt) self.val6
  let t27 ← mo (offsets + 13)
  let w28 ← _mm_storeh_pd (ptr + t27.toInt) self.val6
  let t29 ← mo (offsets + 14)
  let w30 ← _mm_storel_pd (ptr + t29.toInt) self.val7
  let t31 ← mo (offsets + 15)
  let w32 ← _mm_storeh_pd (ptr + t31.toInt) self.val7
  some (w2 ++ w4 ++ w6 ++ w8 ++ w10 ++ w12 ++ w14 ++ w16 ++ w18 ++ w20 ++ w22 ++ w24 ++ w26 ++ w28 ++ w30 ++ w32)

/-- `blend` (detail/short_vec_sse_double_16.hpp:447-485; sse, sse2) -/
def blend_sse (E : FEnv) (self : V) (mask : Mask) (other : V) : V :=
  let val0 : M128d := _mm_or_pd (_mm_and_pd mask.val0 other.val0) (_mm_andnot_pd mask.val0 self.val0)
  let val1 : M128d := _mm_or_pd (_mm_and_pd mask.val1 other.val1) (_mm_andnot_pd mask.val1 self.val1)
  let val2 : M128d := _mm_or_pd (_mm_and_pd mask.val2 other.val2) (_mm_andnot_pd mask.val2 self.val2)
  let val3 : M128d := _mm_or_pd (_mm_and_pd mask.val3 other.val3) (_mm_andnot_pd mask.val3 self.val3)
  let val4 : M128d := _mm_or_pd (_mm_and_pd mask.val4 other.val4) (_mm_andnot_pd mask.val4 self.val4)
  let val5 : M128d := _mm_or_pd (_mm_and_pd mask.val5 other.val5) (_mm_andnot_pd mask.val5 self.val5)
  let val6 : M128d := _mm_or_pd (_mm_and_pd mask.val6 other.val6) (_mm_andnot_pd mask.val6 self.val6)
  let val7 : M128d := _mm_or_pd (_mm_and_pd mask.val7 other.val7) (_mm_andnot_pd mask.val7 self.val7)
  ⟨val0, val1, val2, val3, val4, val5, val6, val7⟩

/-- `blend` (detail/short_vec_sse_double_16.hpp:447-485; sse41) -/
def blend_sse41 (E : FEnv) (self : V) (mask : Mask) (other : V) : V :=
  let val0 : M128d := _mm_blendv_pd self.val0 other.val0 mask.val0
  let val1 : M128d := _mm_blendv_pd self.val1 other.val1 mask.val1
  let val2 : M128d := _mm_blendv_pd self.val2 other.val2 mask.val2
  let val3 : M128d := _mm_blendv_pd self.val3 other.val3 mask.val3
  let val4 : M128d := _mm_blendv_pd self.val4 other.val4 mask.val4
  let val5 : M128d := _mm_blendv_pd self.val5 other.val5 mask.val5
  let val6 : M128d := _mm_blendv_pd self.val6 other.val6 mask.val6
  let val7 : M128d := _mm_blendv_pd self.val7 other.val7 mask.val7
  ⟨val0, val1, val2, val3, val4, val5, val6, val7⟩

/-- `operator<<`, free function (detail/short_vec_sse_double_16.hpp:495-499) -/
def opStore (E : FEnv) (data : Int) (vec : V) : Option (Writes 64) := do
  let w1 ← store E vec data
  some w1

/-- `sqrt`, free function (detail/short_vec_sse_double_16.hpp:501-505) -/
def sqrtFn (E : FEnv) (vec : V) : V := sqrt E vec

/-- `operator<<`, free function (detail/short_vec_sse_double_16.hpp:507-530) -/
def print (E : FEnv) (vec : V) : List (Out 64) :=
  [.s "[", .v vec.val0.x0, .s ", ", .v vec.val0.x1, .s ", ", .v vec.val1.x0, .s ", ", .v vec.val1.x1, .s ", ", .v vec.val2.x0,
      .s ", ", .v vec.val2.x1, .s ", ", .v vec.val3.x0, .s ", ", .v vec.val3.x1, .s ", ", .v vec.val4.x0, .s ", ", .v
      vec.val4.x1, .s ", ", .v vec.val5.x0, .s ", ", .v vec.val5.x1, .s ", ", .v vec.val6.x0, .s ", ", .v vec.val6.x1, .s ", ",
      .v vec.val7.x0, .s ", ", .v vec.val7.x1, .s "]"]

end LFA.SV.SseDouble16

namespace LFA.SV.SseDouble32

/-- members of `short_vec<double, 32>` (detail/short_vec_sse_double_32.hpp:49) -/
structure V where
  val0 : M128d
  val1 : M128d
  val2 : M128d
  val3 : M128d
  val4 : M128d
  val5 : M128d
  val6 : M128d
  val7 : M128d
  val8 : M128d
  val9 : M128d
  val10 : M128d
  val11 : M128d
  val12 : M128d
  val13 : M128d
  val14 : M128d
  val15 : M128d

/-- lanes, from low to high -/
def V.lanes (v : V) : List (BitVec 64) := SV.lanes v.val0 ++ (SV.lanes v.val1 ++ (SV.lanes v.val2 ++ (SV.lanes v.val3 ++
    (SV.lanes v.val4 ++ (SV.lanes v.val5 ++ (SV.lanes v.val6 ++ (SV.lanes v.val7 ++ (SV.lanes v.val8 ++ (SV.lanes v.val9 ++
    (SV.lanes v.val10 ++ (SV.lanes v.val11 ++ (SV.lanes v.val12 ++ (SV.lanes v.val13 ++ (SV.lanes v.val14 ++ (SV.lanes
    v.val15)))))))))))))))

/-- `mask_type` -/
abbrev Mask := V

/-- constructor (detail/short_vec_sse_double_32.hpp:61-79) -/
def bcast (E : FEnv) (data : BitVec 64) : V :=
  ⟨_mm_set1_pd data, _mm_set1_pd data, _mm_set1_pd data, _mm_set1_pd data, _mm_set1_pd data, _mm_set1_pd data, _mm_set1_pd
      data, _mm_set1_pd data, _mm_set1_pd data, _mm_set1_pd data, _mm_set1_pd data, _mm_set1_pd data, _mm_set1_pd data,
      _mm_set1_pd data, _mm_set1_pd data, _mm_set1_pd data⟩

/-- constructor (detail/short_vec_sse_double_32.hpp:87-121) -/
def ofRegs (E : FEnv) (val1 : M128d) (val2 : M128d) (val3 : M128d) (val4 : M128d) (val5 : M128d) (val6 : M128d) (val7 : M128d)
    (val8 : M128d) (val9 : M128d) (val10 : M128d) (val11 : M128d) (val12 : M128d) (val13 : M128d) (val14 : M128d) (val15 :
    M128d) (val16 : M128d) : V :=
  ⟨val1, val2, val3, val4, val5, val6, val7, val8, val9, val10, val11, val12, val13, val14, val15, val16⟩

/-- `load` (detail/short_vec_sse_double_32.hpp:482-501) -/
def load (E : FEnv) (m : Mem 64) (self : V) (data : Int) : Option V := do
  let t1 ← _mm_loadu_pd m (data + 0)
  let val0 : M128d := t1
  let t2 ← _mm_loadu_pd m (data + 2)
  let val1 : M128d := t2
  let t3 ← _mm_loadu_pd m (data + 4)
  let val2 : M128d := t3
  let t4 ← _mm_loadu_pd m (data + 6)
  let val3 : M128d := t4
  let t5 ← _mm_loadu_pd m (data + 8)
  let val4 : M128d := t5
  let t6 ← _mm_loadu_pd m (data + 10)
  let val5 : M128d := t6
  let t7 ← _mm_loadu_pd m (data + 12)
  let val6 : M128d := t7
  let t8 ← _mm_loadu_pd m (data + 14)
  let val7 : M128d := t8
  let t9 ← _mm_loadu_pd m (data + 16)
  let val8 : M128d := t9
  let t10 ← _mm_loadu_pd m (data + 18)
  let val9 : M128d := t10
  let t11 ← _mm_loadu_pd m (data + 20)
  let val10 : M128d := t11
  let t12 ← _mm_loadu_pd m (data + 22)
  let val11 : M128d := t12
  let t13 ← _mm_loadu_pd m (data + 24)
  let val12 : M128d := t13
  let t14 ← _mm_loadu_pd m (data + 26)
  let val13 : M128d := t14
  let t15 ← _mm_loadu_pd m (data + 28)
  let val14 : M128d := t15
  let t16 ← _mm_loadu_pd m (data + 30)
  let val15 : M128d := t16
  some ⟨val0, val1, val2, val3, val4, val5, val6, val7, val8, val9, val10, val11, val12, val13, val14, val15⟩

/-- `store` (detail/short_vec_sse_double_32.hpp:525-544) -/
def store (E : FEnv) (self : V) (data : Int) : Option (Writes 64) := do
  let w1 ← _mm_storeu_pd (data + 0) self.val0
  let w2 ← _mm_storeu_pd (data + 2) self.val1
  let w3 ← _mm_storeu_pd (data + 4) self.val2
  let w4 ← _mm_storeu_pd (data + 6) self.val3
  let w5 ← _mm_storeu_pd (data + 8) self.val4
  let w6 ← _mm_storeu_pd (data + 10) self.val5
  let w7 ← _mm_storeu_pd (data + 12) self.val6
  let w8 ← _mm_storeu_pd (data + 14) self.val7
  let w9 ← _mm_storeu_pd (data + 16) self.val8
  let w10 ← _mm_storeu_pd (data + 18) self.val9
  let w11 ← _mm_storeu_pd (data + 20) self.val10
  let w12 ← _mm_storeu_pd (data + 22) self.val11
  let w13 ← _mm_storeu_pd (data + 24) self.val12
  let w14 ← _mm_storeu_pd (data + 26) self.val13
  let w15 ← _mm_storeu_pd (data + 28) self.val14
  let w16 ← _mm_storeu_pd (data + 30) self.val15
  some (w1 ++ w2 ++ w3 ++ w4 ++ w5 ++ w6 ++ w7 ++ w8 ++ w9 ++ w10 ++ w11 ++ w12 ++ w13 ++ w14 ++ w15 ++ w16)

/-- `sqrt` (detail/short_vec_sse_double_32.hpp:460-480) -/
def sqrt (E : FEnv) (self : V) : V :=
  ofRegs E (_mm_sqrt_pd E self.val0) (_mm_sqrt_pd E self.val1) (_mm_sqrt_pd E self.val2) (_mm_sqrt_pd E self.val3) (_mm_sqrt_pd
      E self.val4) (_mm_sqrt_pd E self.val5) (_mm_sqrt_pd E self.val6) (_mm_sqrt_pd E self.val7) (_mm_sqrt_pd E self.val8)
      (_mm_sqrt_pd E self.val9) (_mm_sqrt_pd E self.val10) (_mm_sqrt_pd E self.val11) (_mm_sqrt_pd E self.val12) (_mm_sqrt_pd E
      self.val13) (_mm_sqrt_pd E self.val14) (_mm_sqrt_pd E self.val15)

/-- constructor (detail/short_vec_sse_double_32.hpp:81-85) -/
def ofPtr (E : FEnv) (m : Mem 64) (data : Int) : Option V := do
  let v1 ← load E m ⟨(uninit : M128d), (uninit : M128d), (uninit : M128d), (uninit : M128d), (uninit : M128d), (uninit :
      M128d), (uninit : M128d), (uninit : M128d), (uninit : M128d), (uninit : M128d), (uninit : M128d), (uninit : M128d),
      (uninit : M128d), (uninit : M128d), (uninit : M128d), (uninit : M128d)⟩ data
  some ⟨v1.val0, v1.val1, v1.val2, v1.val3, v1.val4, v1.val5, v1.val6, v1.val7, v1.val8, v1.val9, v1.val10, v1.val11, v1.val12,
      v1.val13, v1.val14, v1.val15⟩

/-- constructor (detail/short_vec_sse_double_32.hpp:124-129) -/
def ofList (E : FEnv) (m : Mem 64) (il : Int) : Option V := do
  let v1 ← load E m ⟨(uninit : M128d), (uninit : M128d), (uninit : M128d), (uninit : M128d), (uninit : M128d), (uninit :
      M128d), (uninit : M128d), (uninit : M128d), (uninit : M128d), (uninit : M128d), (uninit : M128d), (uninit : M128d),
      (uninit : M128d), (uninit : M128d), (uninit : M128d), (uninit : M128d)⟩ il
  some ⟨v1.val0, v1.val1, v1.val2, v1.val3, v1.val4, v1.val5, v1.val6, v1.val7, v1.val8, v1.val9, v1.val10, v1.val11, v1.val12,
      v1.val13, v1.val14, v1.val15⟩

/-- `any` (detail/short_vec_sse_double_32.hpp:132-159; sse, sse2) -/
def any_sse (E : FEnv) (self : V) : Bool :=
  let buf0 : M128d := _mm_or_pd (_mm_or_pd (_mm_or_pd (_mm_or_pd self.val0 self.val1) (_mm_or_pd self.val2 self.val3))
      (_mm_or_pd (_mm_or_pd self.val4 self.val5) (_mm_or_pd self.val6 self.val7))) (_mm_or_pd (_mm_or_pd (_mm_or_pd self.val8
      self.val9) (_mm_or_pd self.val10 self.val11)) (_mm_or_pd (_mm_or_pd self.val12 self.val13) (_mm_or_pd self.val14
      self.val15)))
  let buf1 : M128d := _mm_shuffle_pd buf0 buf0 1
  (truthy (_mm_cvtsd_f64 buf0)) || (truthy (_mm_cvtsd_f64 buf1))

/-- `any` (detail/short_vec_sse_double_32.hpp:132-159; sse41) -/
def any_sse41 (E : FEnv) (self : V) : Bool :=
  let buf0 : M128d := _mm_or_pd (_mm_or_pd (_mm_or_pd (_mm_or_pd self.val0 self.val1) (_mm_or_pd self.val2 self.val3))
      (_mm_or_pd (_mm_or_pd self.val4 self.val5) (_mm_or_pd self.val6 self.val7))) (_mm_or_pd (_mm_or_pd (_mm_or_pd self.val8
      self.val9) (_mm_or_pd self.val10 self.val11)) (_mm_or_pd (_mm_or_pd self.val12 self.val13) (_mm_or_pd self.val14
      self.val15)))
  (0 : BitVec 32) == (_mm_testz_si128 (_mm_castpd_si128 buf0) (_mm_castpd_si128 buf0))

/-- `operator[]` (detail/short_vec_sse_double_32.hpp:161-173) -/
def opIndex (E : FEnv) (self : V) (i : BitVec 32) : Option (BitVec 64) := do
  let t1 ← dyn [self.val0, self.val1, self.val2, self.val3, self.val4, self.val5, self.val6, self.val7, self.val8, self.val9,
      self.val10, self.val11, self.val12, self.val13, self.val14, self.val15] (i.sshiftRight 1)
  let buf : M128d := t1
  let i : BitVec 32 := i &&& (1 : BitVec 32)
  if i == (0 : BitVec 32) then do
    some (_mm_cvtsd_f64 buf)
  else do
    let buf : M128d := _mm_shuffle_pd buf buf 1
    some (_mm_cvtsd_f64 buf)

/-- `operator-=` (detail/short_vec_sse_double_32.hpp:175-194) -/
def opSubAssign (E : FEnv) (self : V) (other : V) : V :=
  let val0 : M128d := _mm_sub_pd E self.val0 other.val0
  let val1 : M128d := _mm_sub_pd E self.val1 other.val1
  let val2 : M128d := _mm_sub_pd E self.val2 other.val2
  let val3 : M128d := _mm_sub_pd E self.val3 other.val3
  let val4 : M128d := _mm_sub_pd E self.val4 other.val4
  let val5 : M128d := _mm_sub_pd E self.val5 other.val5
  let val6 : M128d := _mm_sub_pd E self.val6 other.val6
  let val7 : M128d := _mm_sub_pd E self.val7 other.val7
  let val8 : M128d := _mm_sub_pd E self.val8 other.val8
  let val9 : M128d := _mm_sub_pd E self.val9 other.val9
  let val10 : M128d := _mm_sub_pd E self.val10 other.val10
  let val11 : M128d := _mm_sub_pd E self.val11 other.val11
  let val12 : M128d := _mm_sub_pd E self.val12 other.val12
  let val13 : M128d := _mm_sub_pd E self.val13 other.val13
  let val14 : M128d := _mm_sub_pd E self.val14 other.val14
  let val15 : M128d := _mm_sub_pd E self.val15 other.val15
  ⟨val0, val1, val2, val3, val4, val5, val6, val7, val8, val9, val10, val11, val12, val13, val14, val15⟩

/-- `operator-` (detail/short_vec_sse_double_32.hpp:196-216) -/
def opSub (E : FEnv) (self : V) (other : V) : V :=
  ofRegs E (_mm_sub_pd E self.val0 other.val0) (_mm_sub_pd E self.val1 other.val1) (_mm_sub_pd E self.val2 other.val2)
      (_mm_sub_pd E self.val3 other.val3) (_mm_sub_pd E self.val4 other.val4) (_mm_sub_pd E self.val5 other.val5) (_mm_sub_pd E
      self.val6 other.val6) (_mm_sub_pd E self.val7 other.val7) (_mm_sub_pd E self.val8 other.val8) (_mm_sub_pd E self.val9
      other.val9) (_mm_sub_pd E self.val10 other.val10) (_mm_sub_pd E self.val11 other.val11) (_mm_sub_pd E self.val12
      other.val12) (_mm_sub_pd E self.val13 other.val13) (_mm_sub_pd E self.val14 other.val14) (_mm_sub_pd E self.val15
      other.val15)

/-- `operator+=` (detail/short_vec_sse_double_32.hpp:218-237) -/
def opAddAssign (E : FEnv) (self : V) (other : V) : V :=
  let val0 : M128d := _mm_add_pd E self.val0 other.val0
  let val1 : M128d := _mm_add_pd E self.val1 other.val1
  let val2 : M128d := _mm_add_pd E self.val2 other.val2
  let val3 : M128d := _mm_add_pd E self.val3 other.val3
  let val4 : M128d := _mm_add_pd E self.val4 other.val4
  let val5 : M128d := _mm_add_pd E self.val5 other.val5
  let val6 : M128d := _mm_add_pd E self.val6 other.val6
  let val7 : M128d := _mm_add_pd E self.val7 other.val7
  let val8 : M128d := _mm_add_pd E self.val8 other.val8
  let val9 : M128d := _mm_add_pd E self.val9 other.val9
  let val10 : M128d := _mm_add_pd E self.val10 other.val10
  let val11 : M128d := _mm_add_pd E self.val11 other.val11
  let val12 : M128d := _mm_add_pd E self.val12 other.val12
  let val13 : M128d := _mm_add_pd E self.val13 other.val13
  let val14 : M128d := _mm_add_pd E self.val14 other.val14
  let val15 : M128d := _mm_add_pd E self.val15 other.val15
  ⟨val0, val1, val2, val3, val4, val5, val6, val7, val8, val9, val10, val11, val12, val13, val14, val15⟩

/-- `operator+` (detail/short_vec_sse_double_32.hpp:239-259) -/
def opAdd (E : FEnv) (self : V) (other : V) : V :=
  ofRegs E (_mm_add_pd E self.val0 other.val0) (_mm_add_pd E self.val1 other.val1) (_mm_add_pd E self.val2 other.val2)
      (_mm_add_pd E self.val3 other.val3) (_mm_add_pd E self.val4 other.val4) (_mm_add_pd E self.val5 other.val5) (_mm_add_pd E
      self.val6 other.val6) (_mm_add_pd E self.val7 other.val7) (_mm_add_pd E self.val8 other.val8) (_mm_add_pd E self.val9
      other.val9) (_mm_add_pd E self.val10 other.val10) (_mm_add_pd E self.val11 other.val11) (_mm_add_pd E self.val12
      other.val12) (_mm_add_pd E self.val13 other.val13) (_mm_add_pd E self.val14 other.val14) (_mm_add_pd E self.val15
      other.val15)

/-- `operator*=` (detail/short_vec_sse_double_32.hpp:261-280) -/
def opMulAssign (E : FEnv) (self : V) (other : V) : V :=
  let val0 : M128d := _mm_mul_pd E self.val0 other.val0
  let val1 : M128d := _mm_mul_pd E self.val1 other.val1
  let val2 : M128d := _mm_mul_pd E self.val2 other.val2
  let val3 : M128d := _mm_mul_pd E self.val3 other.val3
  let val4 : M128d := _mm_mul_pd E self.val4 other.val4
  let val5 : M128d := _mm_mul_pd E self.val5 other.val5
  let val6 : M128d := _mm_mul_pd E self.val6 other.val6
  let val7 : M128d := _mm_mul_pd E self.val7 other.val7
  let val8 : M128d := _mm_mul_pd E self.val8 other.val8
  let val9 : M128d := _mm_mul_pd E self.val9 other.val9
  let val10 : M128d := _mm_mul_pd E self.val10 other.val10
  let val11 : M128d := _mm_mul_pd E self.val11 other.val11
  let val12 : M128d := _mm_mul_pd E self.val12 other.val12
  let val13 : M128d := _mm_mul_pd E self.val13 other.val13
  let val14 : M128d := _mm_mul_pd E self.val14 other.val14
  let val15 : M128d := _mm_mul_pd E self.val15 other.val15
  ⟨val0, val1, val2, val3, val4, val5, val6, val7, val8, val9, val10, val11, val12, val13, val14, val15⟩

/-- `operator*` (detail/short_vec_sse_double_32.hpp:282-302) -/
def opMul (E : FEnv) (self : V) (other : V) : V :=
  ofRegs E (_mm_mul_pd E self.val0 other.val0) (_mm_mul_pd E self.val1 other.val1) (_mm_mul_pd E self.val2 other.val2)
      (_mm_mul_pd E self.val3 other.val3) (_mm_mul_pd E self.val4 other.val4) (_mm_mul_pd E self.val5 other.val5) (_mm_mul_pd E
      self.val6 other.val6) (_mm_mul_pd E self.val7 other.val7) (_mm_mul_pd E self.val8 other.val8) (_mm_mul_pd E self.val9
      other.val9) (_mm_mul_pd E self.val10 other.val10) (_mm_mul_pd E self.val11 other.val11) (_mm_mul_pd E self.val12
      other.val12) (_mm_mul_pd E self.val13 other.val13) (_mm_mul_pd E self.val14 other.val14) (_mm_mul_pd E self.val15
      other.val15)

/-- `operator/=` (detail/short_vec_sse_double_32.hpp:304-323) -/
def opDivAssign (E : FEnv) (self : V) (other : V) : V :=
  let val0 : M128d := _mm_div_pd E self.val0 other.val0
  let val1 : M128d := _mm_div_pd E self.val1 other.val1
  let val2 : M128d := _mm_div_pd E self.val2 other.val2
  let val3 : M128d := _mm_div_pd E self.val3 other.val3
  let val4 : M128d := _mm_div_pd E self.val4 other.val4
  let val5 : M128d := _mm_div_pd E self.val5 other.val5
  let val6 : M128d := _mm_div_pd E self.val6 other.val6
  let val7 : M128d := _mm_div_pd E self.val7 other.val7
  let val8 : M128d := _mm_div_pd E self.val8 other.val8
  let val9 : M128d := _mm_div_pd E self.val9 other.val9
  let val10 : M128d := _mm_div_pd E self.val10 other.val10
  let val11 : M128d := _mm_div_pd E self.val11 other.val11
  let val12 : M128d := _mm_div_pd E self.val12 other.val12
  let val13 : M128d := _mm_div_pd E self.val13 other.val13
  let val14 : M128d := _mm_div_pd E self.val14 other.val14
  let val15 : M128d := _mm_div_pd E self.val15 other.val15
  ⟨val0, val1, val2, val3, val4, val5, val6, val7, val8, val9, val10, val11, val12, val13, val14, val15⟩

/-- `operator/` (detail/short_vec_sse_double_32.hpp:325-345) -/
def opDiv (E : FEnv) (self : V) (other : V) : V :=
  ofRegs E (_mm_div_pd E self.val0 other.val0) (_mm_div_pd E self.val1 other.val1) (_mm_div_pd E self.val2 other.val2)
      (_mm_div_pd E self.val3 other.val3) (_mm_div_pd E self.val4 other.val4) (_mm_div_pd E self.val5 other.val5) (_mm_div_pd E
      self.val6 other.val6) (_mm_div_pd E self.val7 other.val7) (_mm_div_pd E self.val8 other.val8) (_mm_div_pd E self.val9
      other.val9) (_mm_div_pd E self.val10 other.val10) (_mm_div_pd E self.val11 other.val11) (_mm_div_pd E self.val12
      other.val12) (_mm_div_pd E self.val13 other.val13) (_mm_div_pd E self.val14 other.val14) (_mm_div_pd E self.val15
      other.val15)

/-- `operator<` (detail/short_vec_sse_double_32.hpp:350-370) -/
def opLt (E : FEnv) (self : V) (other : V) : V :=
  ofRegs E (_mm_cmplt_pd E self.val0 other.val0) (_mm_cmplt_pd E self.val1 other.val1) (_mm_cmplt_pd E self.val2 other.val2)
      (_mm_cmplt_pd E self.val3 other.val3) (_mm_cmplt_pd E self.val4 other.val4) (_mm_cmplt_pd E self.val5 other.val5)
      (_mm_cmplt_pd E self.val6 other.val6) (_mm_cmplt_pd E self.val7 other.val7) (_mm_cmplt_pd E self.val8 other.val8)
      (_mm_cmplt_pd E self.val9 other.val9) (_mm_cmplt_pd E self.val10 other.val10) (_mm_cmplt_pd E self.val11 other.val11)
      (_mm_cmplt_pd E self.val12 other.val12) (_mm_cmplt_pd E self.val13 other.val13) (_mm_cmplt_pd E self.val14 other.val14)
      (_mm_cmplt_pd E self.val15 other.val15)

/-- `operator<=` (detail/short_vec_sse_double_32.hpp:372-392) -/
def opLe (E : FEnv) (self : V) (other : V) : V :=
  ofRegs E (_mm_cmple_pd E self.val0 other.val0) (_mm_cmple_pd E self.val1 other.val1) (_mm_cmple_pd E self.val2 other.val2)
      (_mm_cmple_pd E self.val3 other.val3) (_mm_cmple_pd E self.val4 other.val4) (_mm_cmple_pd E self.val5 other.val5)
      (_mm_cmple_pd E self.val6 other.val6) (_mm_cmple_pd E self.val7 other.val7) (_mm_cmple_pd E self.val8 other.val8)
      (_mm_cmple_pd E self.val9 other.val9) (_mm_cmple_pd E self.val10 other.val10) (_mm_cmple_pd E self.val11 other.val11)
      (_mm_cmple_pd E self.val12 other.val12) (_mm_cmple_pd E self.val13 other.val13) (_mm_cmple_pd E self.val14 other.val14)
      (_mm_cmple_pd E self.val15 other.val15)

/-- `operator==` (detail/short_vec_sse_double_32.hpp:394-414) -/
def opEq (E : FEnv) (self : V) (other : V) : V :=
  ofRegs E (_mm_cmpeq_pd E self.val0 other.val0) (_mm_cmpeq_pd E self.val1 other.val1) (_mm_cmpeq_pd E self.val2 other.val2)
      (_mm_cmpeq_pd E self.val3 other.val3) (_mm_cmpeq_pd E self.val4 other.val4) (_mm_cmpeq_pd E self.val5 other.val5)
      (_mm_cmpeq_pd E self.val6 other.val6) (_mm_cmpeq_pd E self.val7 other.val7) (_mm_cmpeq_pd E self.val8 other.val8)
      (_mm_cmpeq_pd E self.val9 other.val9) (_mm_cmpeq_pd E self.val10 other.val10) (_mm_cmpeq_pd E self.val11 other.val11)
      (_mm_cmpeq_pd E self.val12 other.val12) (_mm_cmpeq_pd E self.val13 other.val13) (_mm_cmpeq_pd E self.val14 other.val14)
      (_mm_cmpeq_pd E self.val15 other.val15)

/-- `operator>` (detail/short_vec_sse_double_32.hpp:416-436) -/
def opGt (E : FEnv) (self : V) (other : V) : V :=
  ofRegs E (_mm_cmpgt_pd E self.val0 other.val0) (_mm_cmpgt_pd E self.val1 other.val1) (_mm_cmpgt_pd E self.val2 other.val2)
      (_mm_cmpgt_pd E self.val3 other.val3) (_mm_cmpgt_pd E self.val4 other.val4) (_mm_cmpgt_pd E self.val5 other.val5)
      (_mm_cmpgt_pd E self.val6 other.val6) (_mm_cmpgt_pd E self.val7 other.val7) (_mm_cmpgt_pd E self.val8 other.val8)
      (_mm_cmpgt_pd E self.val9 other.val9) (_mm_cmpgt_pd E self.val10 other.val10) (_mm_cmpgt_pd E self.val11 other.val11)
      (_mm_cmpgt_pd E self.val12 other.val12) (_mm_cmpgt_pd E self.val13 other.val13) (_mm_cmpgt_pd E self.val14 other.val14)
      (_mm_cmpgt_pd E self.val15 other.val15)

/-- `operator>=` (detail/short_vec_sse_double_32.hpp:438-458) -/
def opGe (E : FEnv) (self : V) (other : V) : V :=
  ofRegs E (_mm_cmpge_pd E self.val0 other.val0) (_mm_cmpge_pd E self.val1 other.val1) (_mm_cmpge_pd E self.val2 other.val2)
      (_mm_cmpge_pd E self.val3 other.val3) (_mm_cmpge_pd E self.val4 other.val4) (_mm_cmpge_pd E self.val5 other.val5)
      (_mm_cmpge_pd E self.val6 other.val6) (_mm_cmpge_pd E self.val7 other.val7) (_mm_cmpge_pd E self.val8 other.val8)
      (_mm_cmpge_pd E self.val9 other.val9) (_mm_cmpge_pd E self.val10 other.val10) (_mm_cmpge_pd E self.val11 other.val11)
      (_mm_cmpge_pd E self.val12 other.val12) (_mm_cmpge_pd E self.val13 other.val13) (_mm_cmpge_pd E self.val14 other.val14)
      (_mm_cmpge_pd E self.val15 other.val15)

/-- `load_aligned` (detail/short_vec_sse_double_32.hpp:503-523) -/
def load_aligned (E : FEnv) (m : Mem 64) (self : V) (data : Int) : Option V := do
  assertAligned 8 data 16
  let t1 ← _mm_load_pd m (data + 0)
  let val0 : M128d := t1
  let t2 ← _mm_load_pd m (data + 2)
  let val1 : M128d := t2
  let t3 ← _mm_load_pd m (data + 4)
  let val2 : M128d := t3
  let t4 ← _mm_load_pd m (data + 6)
  let val3 : M128d := t4
  let t5 ← _mm_load_pd m (data + 8)
  let val4 : M128d := t5
  let t6 ← _mm_load_pd m (data + 10)
  let val5 : M128d := t6
  let t7 ← _mm_load_pd m (data + 12)
  let val6 : M128d := t7
  let t8 ← _mm_load_pd m (data + 14)
  let val7 : M128d := t8
  let t9 ← _mm_load_pd m (data + 16)
  let val8 : M128d := t9
  let t10 ← _mm_load_pd m (data + 18)
  let val9 : M128d := t10
  let t11 ← _mm_load_pd m (data + 20)
  let val10 : M128d := t11
  let t12 ← _mm_load_pd m (data + 22)
  let val11 : M128d := t12
  let t13 ← _mm_load_pd m (data + 24)
  let val12 : M128d := t13
  let t14 ← _mm_load_pd m (data + 26)
  let val13 : M128d := t14
  let t15 ← _mm_load_pd m (data + 28)
  let val14 : M128d := t15
  let t16 ← _mm_load_pd m (data + 30)
  let val15 : M128d := t16
  some ⟨val0, val1, val2, val3, val4, val5, val6, val7, val8, val9, val10, val11, val12, val13, val14, val15⟩

/-- `store_aligned` (detail/short_vec_sse_double_32.hpp:546-566) -/
def store_aligned (E : FEnv) (self : V) (data : Int) : Option (Writes 64) := do
  assertAligned 8 data 16
  let w1 ← _mm_store_pd (data + 0) self.val0
  let w2 ← _mm_store_pd (data + 2) self.val1
  let w3 ← _mm_store_pd (data + 4) self.val2
  let w4 ← _mm_store_pd (data + 6) self.val3
  let w5 ← _mm_store_pd (data + 8) self.val4
  let w6 ← _mm_store_pd (data + 10) self.val5
  let w7 ← _mm_store_pd (data + 12) self.val6
  let w8 ← _mm_store_pd (data + 14) self.val7
  let w9 ← _mm_store_pd (data + 16) self.val8
  let w10 ← _mm_store_pd (data + 18) self.val9
  let w11 ← _mm_store_pd (data + 20) self.val10
  let w12 ← _mm_store_pd (data + 22) self.val11
  let w13 ← _mm_store_pd (data + 24) self.val12
  let w14 ← _mm_store_pd (data + 26) self.val13
  let w15 ← _mm_store_pd (data + 28) self.val14
  let w16 ← _mm_store_pd (data + 30) self.val15
  some (w1 ++ w2 ++ w3 ++ w4 ++ w5 ++ w6 ++ w7 ++ w8 ++ w9 ++ w10 ++ w11 ++ w12 ++ w13 ++ w14 ++ w15 ++ w16)

/-- `store_nt` (detail/short_vec_sse_double_32.hpp:568-588) -/
def store_nt (E : FEnv) (self : V) (data : Int) : Option (Writes 64) := do
  assertAligned 8 data 16
  let w1 ← _mm_stream_pd (data + 0) self.val0
  let w2 ← _mm_stream_pd (data + 2) self.val1
  let w3 ← _mm_stream_pd (data + 4) self.val2
  let w4 ← _mm_stream_pd (data + 6) self.val3
  let w5 ← _mm_stream_pd (data + 8) self.val4
  let w6 ← _mm_stream_pd (data + 10) self.val5
  let w7 ← _mm_stream_pd (data + 12) self.val6
  let w8 ← _mm_stream_pd (data + 14) self.val7
  let w9 ← _mm_stream_pd (data + 16) self.val8
  let w10 ← _mm_stream_pd (data + 18) self.val9
  let w11 ← _mm_stream_pd (data + 20) self.val10
  let w12 ← _mm_stream_pd (data + 22) self.val11
  let w13 ← _mm_stream_pd (data + 24) self.val12
  let w14 ← _mm_stream_pd (data + 26) self.val13
  let w15 ← _mm_stream_pd (data + 28) self.val14
  let w16 ← _mm_stream_pd (data + 30) self.val15
  some (w1 ++ w2 ++ w3 ++ w4 ++ w5 ++ w6 ++ w7 ++ w8 ++ w9 ++ w10 ++ w11 ++ w12 ++ w13 ++ w14 ++ w15 ++ w16)

/-- `gather` (detail/short_vec_sse_double_32.hpp:590-625) -/
def gather (E : FEnv) (m : Mem 64) (mo : Mem 32) (self : V) (ptr : Int) (offsets : Int) : Option V := do
  let t1 ← mo (offsets + 0)
  let t2 ← _mm_loadl_pd m self.val0 (ptr + t1.toInt)
  let val0 : M128d := t2
  let t3 ← mo (offsets + 1)
  let t4 ← _mm_loadh_pd m val0 (ptr + t3.toInt)
  let val0 : M128d := t4
  let t5 ← mo (offsets + 2)
  let t6 ← _mm_loadl_pd m self.val1 (ptr + t5.toInt)
  let val1 : M128d := t6
  let t7 ← mo (offsets + 3)
  let t8 ← _mm_loadh_pd m val1 (ptr + t7.toInt)
  let val1 : M128d := t8
  let t9 ← mo (offsets + 4)
  let t10 ← _mm_loadl_pd m self.val2 (ptr + t9.toInt)
  let val2 : M128d := t10
  let t11 ← mo (offsets + 5)
  let t12 ← _mm_loadh_pd m val2 (ptr + t11.toInt)
  let val2 : M128d := t12
  let t13 ← mo (offsets + 6)
  let t14 ← _mm_loadl_pd m self.val3 (ptr + t13.toInt)
  let val3 : M128d := t14
  let t15 ← mo (offsets + 7)
  let t16 ← _mm_loadh_pd m val3 (ptr + t15.toInt)
  let val3 : M128d := t16
  let t17 ← mo (offsets + 8)
  let t18 ← _mm_loadl_pd m self.val4 (ptr + t17.toInt)
  let val4 : M128d := t18
  let t19 ← mo (offsets + 9)
  let t20 ← _mm_loadh_pd m val4 (ptr + t19.toInt)
  let val4 : M128d := t20
  let t21 ← mo (offsets + 10)
  let t22 ← _mm_loadl_pd m self.val5 (ptr + t21.toInt)
  let val5 : M128d := t22
  let t23 ← mo (offsets + 11)
  let t24 ← _mm_loadh_pd m val5 (ptr + t23.toInt)
  let val5 : M128d := t24
  let t25 ← mo (offsets + 12)
  let t26 ← _mm_loadl_pd m self.val6 (ptr + t25.toInt)
  let val6 : M128d := t26
  let t27 ← mo (offsets + 13)
  let t28 ← _mm_loadh_pd m val6 (ptr + t27.toInt)
  let val6 : M128d := t28
  let t29 ← mo (offsets + 14)
  let t30 ← _mm_loadl_pd m self.val7 (ptr + t29.toInt)
  let val7 : M128d := t30
  let t31 ← mo (offsets + 15)
  let t32 ← _mm_loadh_pd m val7 (ptr + t31.toInt)
  let val7 : M128d := t32
  let t33 ← mo (offsets + 16)
  let t34 ← _mm_loadl_pd m self.val8 (ptr + t33.toInt)
  let val8 : M128d := t34
  let t35 ← mo (offsets + 17)
  let t36 ← _mm_loadh_pd m val8 (ptr + t35.toInt)
  let val8 : M128d := t36
  let t37 ← mo (offsets + 18)
  let t38 ← _mm_loadl_pd m self.val9 (ptr + t37.toInt)
  let val9 : M128d := t38
  let t39 ← mo (offsets + 19)
  let t40 ← _mm_loadh_pd m val9 (ptr + t39.toInt)
  let val9 : M128d := t40
  let t41 ← mo (offsets + 20)
  let t42 ← _mm_loadl_pd m self.val10 (ptr + t41.toInt)
  let val10 : M128d := t42
  let t43 ← mo (offsets + 21)
  let t44 ← _mm_loadh_pd m val10 (ptr + t43.toInt)
  let val10 : M128d := t44
  let t45 ← mo (offsets + 22)
  let t46 ← _mm_loadl_pd m self.val11 (ptr + t45.toInt)
  let val11 : M128d := t46
  let t47 ← mo (offsets + 23)
  let t48 ← _mm_loadh_pd m val11 (ptr + t47.toInt)
  let val11 : M128d := t48
  let t49 ← mo (offsets + 24)
  let t50 ← _mm_loadl_pd m self.val12 (ptr + t49.toInt)
  let val12 : M128d := t50
  let t51 ← mo (offsets + 25)
  let t52 ← _mm_loadh_pd m val12 (ptr + t51.toInt)
  let val12 : M128d := t52
  let t53 ← mo (offsets + 26)
  let t54 ← _mm_loadl_pd m self.val13 (ptr + t53.toInt)
  let val13 : M128d := t54
  let t55 ← mo (offsets + 27)
  let t56 ← _mm_loadh_pd m val13 (ptr + t55.toInt)
  let val13 : M128d := t56
  let t57 ← mo (offsets + 28)
  let t58 ← _mm_loadl_pd m self.val14 (ptr + t57.toInt)
  let val14 : M128d := t58
  let t59 ← mo (offsets + 29)
  let t60 ← _mm_loadh_pd m val14 (ptr + t59.toInt)
  let val14 : M128d := t60
  let t61 ← mo (offsets + 30)
  let t62 ← _mm_loadl_pd m self.val15 (ptr + t61.toInt)
  let val15 : M128d := t62
  let t63 ← mo (offsets + 31)
  let t64 ← _mm_loadh_pd m val15 (ptr + t63.toInt)
  let val15 : M128d := t64
  some ⟨val0, val1, val2, val3, val4, val5, val6, val7, val8, val9, val10, val11, val12, val13, val14, val15⟩

/-- `scatter` (detail/short_vec_sse_double_32.hpp:627-662) -/
def scatter (E : FEnv) (mo : Mem 32) (self : V) (ptr : Int) (offsets : Int) : Option (Writes 64) := do
  let t1 ← mo (offsets + 0)
  let w2 ← _mm_storel_pd (ptr + t1.toInt) self.val0
  let t3 ← mo (offsets + 1)
  let w4 ← _mm_storeh_pd (ptr + t3.toInt) self.val0
  let t5 ← mo (offsets + 2)
  let w6 ← _mm_storel_pd (ptr + t5.toInt) self.val1
  let t7 ← mo (offsets + 3)
  let w8 ← _mm_storeh_pd (ptr + t7.toInt) self.val1
  let t9 ← mo (offsets + 4)
  let w10 ← _mm_storel_pd (ptr + t9.toInt) self.val2
  let t11 ← mo (offsets + 5)
  let w12 ← _mm_storeh_pd (ptr + t11.toInt) self.val2
  let t13 ← mo (offsets + 6)
  let w14 ← _mm_storel_pd (ptr + t13.toInt) self.val3
  let t15 ← mo (offsets + 7)
  let w16 ← _mm_storeh_pd (ptr + t15.toInt) self.val3
  let t17 ← mo (offsets + 8)
  let w18 ← _mm_storel_pd (ptr + t17.toInt) self.val4
  let t19 ← mo (offsets + 9)
  let w20 ← _mm_storeh_pd (ptr + t19.toInt) self.val4
  let t21 ← mo (offsets + 10)
  let w22 ← _mm_storel_pd (ptr + t21.toInt) self.val5
  let t23 ← mo (offsets + 11)
  let w24 ← _mm_storeh_pd (ptr + t23.toInt) self.val5
  let t25 ← mo (offsets + 12)
  let w26 ← _mm_storel_pd (ptr + t25.toInt) self.val6
  let t27 ← mo (offsets + 13)
  let w28 ← _mm_storeh_pd (ptr + t27.toInt) self.val6
  let t29 ← mo (offsets + 14)
  let w30 ← _mm_storel_pd (ptr + t29.toInt) self.val7
  let t31 ← mo (offsets + 15)
  let w32 ← _mm_storeh_pd (ptr + t31.toInt) self.val7
  let t33 ← mo (offsets + 16)
  let w34 ← _mm_storel_pd (ptr + t33.toInt) self.val8
  let t35 ← mo (offsets + 17)
  let w36 ← _mm_storeh_pd (ptr + t35.toInt) self.val8
  let t37 ← mo (offsets + 18)
  let w38 ← _mm_storel_pd (ptr + t37.toInt) self.val9
  let t39 ← mo (offsets + 19)
  let w40 ← _mm_storeh_pd (ptr + t39.toInt) self.val9
  let t41 ← mo (offsets + 20)
  let w42 ← _mm_storel_pd (ptr + t41.toInt) self.val10
  let t43 ← mo (offsets + 21)
  let w44 ← _mm_storeh_pd (ptr + t43.toInt) self.val10
  let t45 ← mo (offsets + 22)
  let w46 ← _mm_storel_pd (ptr + t45.toInt) self.val11
  let t47 ← mo (offsets + 23)
  let w48 ← _mm_storeh_pd (ptr + t47.toInt) self.val11
  let t49 ← mo (offsets + 24)
  let w50 ← _mm_storel_pd (ptr + t49.toInt) self.val12
  let t51 ← mo (offsets + 25)
  let w52 ← _mm_storeh_pd (ptr + t51.toInt) self.val12
  let t53 ← mo (offsets + 26)
  let w54 ← _mm_storel_pd (ptr + t53.toInt) self.val13
  let t55 ← mo (offsets + 27)
  let w56 ← _mm_storeh_pd (ptr + t55.toInt) self.val13
  let t57 ← mo (offsets + 28)
  let w58 ← _mm_storel_pd (ptr + t57.toInt) self.val14
  let t59 ← mo (offsets + 29)
  let w60 ← _mm_storeh_pd (ptr + t59.toInt) self.val14
  let t61 ← mo (offsets + 30)
  let w62 ← _mm_storel_pd (ptr + t61.toInt) self.val15
  let t63 ← mo (offsets + 31)
  let w64 ← _mm_storeh_pd (ptr + t63.toInt) self.val15
  some (w2 ++ w4 ++ w6 ++ w8 ++ w10 ++ w12 ++ w14 ++ w16 ++ w18 ++ w20 ++ w22 ++ w24 ++ w26 ++ w28 ++ w30 ++ w32 ++ w34 ++ w36
      ++ w38 ++ w40 ++ w42 ++ w44 ++ w46 ++ w48 ++ w50 ++ w52 ++ w54 ++ w56 ++ w58 ++ w60 ++ w62 ++ w64)

/-- `blend` (detail/short_vec_sse_double_32.hpp:664-734; sse, sse2) -/
def blend_sse (E : FEnv) (self : V) (mask : Mask) (other : V) : V :=
  let val0 : M128d := _mm_or_pd (_mm_and_pd mask.val0 other.val0) (_mm_andnot_pd mask.val0 self.val0)
  let val1 : M128d := _mm_or_pd (_mm_and_pd mask.val1 other.val1) (_mm_andnot_pd mask.val1 self.val1)
  let val2 : M128d := _mm_or_pd (_mm_and_pd mask.val2 other.val2) (_mm_andnot_pd mask.val2 self.val2)
  let val3 : M128d := _mm_or_pd (_mm_and_pd mask.val3 other.val3) (_mm_andnot_pd mask.val3 self.val3)
  let val4 : M128d := _mm_or_pd (_mm_and_pd mask.val4 other.val4) (_mm_andnot_pd mask.val4 self.val4)
  let val5 : M128d := _mm_or_pd (_mm_and_pd mask.val5 other.val5) (_mm_andnot_pd mask.val5 self.val5)
  let val6 : M128d := _mm_or_pd (_mm_and_pd mask.val6 other.val6) (_mm_andnot_pd mask.val6 self.val6)
  let val7 : M128d := _mm_or_pd (_mm_and_pd mask.val7 other.val7) (_mm_andnot_pd mask.val7 self.val7)
  let val8 : M128d := _mm_or_pd (_mm_and_pd mask.val8 other.val8) (_mm_andnot_pd mask.val8 self.val8)
  let val9 : M128d := _mm_or_pd (_mm_and_pd mask.val9 other.val9) (_mm_andnot_pd mask.val9 self.val9)
  let val10 : M128d := _mm_or_pd (_mm_and_pd mask.val10 other.val10) (_mm_andnot_pd mask.val10 self.val10)
  let val11 : M128d := _mm_or_pd (_mm_and_pd mask.val11 other.val11) (_mm_andnot_pd mask.val11 self.val11)
  let val12 : M128d := _mm_or_pd (_mm_and_pd mask.val12 other.val12) (_mm_andnot_pd mask.val12 self.val12)
  let val13 : M128d := _mm_or_pd (_mm_and_pd mask.val13 other.val13) (_mm_andnot_pd mask.val13 self.val13)
  let val14 : M128d := _mm_or_pd (_mm_and_pd mask.val14 other.val14) (_mm_andnot_pd mask.val14 self.val14)
  let val15 : M128d := _mm_or_pd (_mm_and_pd mask.val15 other.val15) (_mm_andnot_pd mask.val15 self.val15)
  ⟨val0, val1, val2, val3, val4, val5, val6, val7, val8, val9, val10, val11, val12, val13, val14, val15⟩

/-- `blend` (detail/short_vec_sse_double_32.hpp:664-734; sse41) -/
def blend_sse41 (E : FEnv) (self : V) (mask : Mask) (other : V) : V :=
  let val0 : M128d := _mm_blendv_pd self.val0 other.val0 mask.val0
  let val1 : M128d := _mm_blendv_pd self.val1 other.val1 mask.val1
  let val2 : M128d := _mm_blendv_pd self.val2 other.val2 mask.val2
  let val3 : M128d := _mm_blendv_pd self.val3 other.val3 mask.val3
  let val4 : M128d := _mm_blendv_pd self.val4 other.val4 mask.val4
  let val5 : M128d := _mm_blendv_pd self.val5 other.val5 mask.val5
  let val6 : M128d := _mm_blendv_pd self.val6 other.val6 mask.val6
  let val7 : M128d := _mm_blendv_pd self.val7 other.val7 mask.val7
  let val8 : M128d := _mm_blendv_pd self.val8 other.val8 mask.val8
  let val9 : M128d := _mm_blendv_pd self.val9 other.val9 mask.val9
  let val10 : M128d := _mm_blendv_pd self.val10 other.val10 mask.val10
  let val11 : M128d := _mm_blendv_pd self.val11 other.val11 mask.val11
  let val12 : M128d := _mm_blendv_pd self.val12 other.val12 mask.val12
  let val13 : M128d := _mm_blendv_pd self.val13 other.val13 mask.val13
  let val14 : M128d := _mm_blendv_pd self.val14 other.val14 mask.val14
  let val15 : M128d := _mm_blendv_pd self.val15 other.val15 mask.val15
  ⟨val0, val1, val2, val3, val4, val5, val6, val7, val8, val9, val10, val11, val12, val13, val14, val15⟩

/-- `operator<<`, free function (detail/short_vec_sse_double_32.hpp:744-748) -/
def opStore (E : FEnv) (data : Int) (vec : V) : Option (Writes 64) := do
  let w1 ← store E vec data
  some w1

/-- `sqrt`, free function (detail/short_vec_sse_double_32.hpp:750-754) -/
def sqrtFn (E : FEnv) (vec : V) : V := sqrt E vec

/-- `operator<<`, free function (detail/short_vec_sse_double_32.hpp:756-795) -/
def print (E : FEnv) (vec : V) : List (Out 64) :=
  [.s "[", .v vec.val0.x0, .s ", ", .v vec.val0.x1, .s ", ", .v vec.val1.x0, .s ", ", .v vec.val1.x1, .s ", ", .v vec.val2.x0,
      .s ", ", .v vec.val2.x1, .s ", ", .v vec.val3.x0, .s ", ", .v vec.val3.x1, .s ", ", .v vec.val4.x0, .s ", ", .v
      vec.val4.x1, .s ", ", .v vec.val5.x0, .s ", ", .v vec.val5.x1, .s ", ", .v vec.val6.x0, .s ", ", .v vec.val6.x1, .s ", ",
      .v vec.val7.x0, .s ", ", .v vec.val7.x1, .s ", ", .v vec.val8.x0, .s ", ", .v vec.val8.x1, .s ", ", .v vec.val9.x0, .s
      ", ", .v vec.val9.x1, .s ", ", .v vec.val10.x0, .s ", ", .v vec.val10.x1, .s ", ", .v vec.val11.x0, .s ", ", .v
      vec.val11.x1, .s ", ", .v vec.val12.x0, .s ", ", .v vec.val12.x1, .s ", ", .v vec.val13.x0, .s ", ", .v vec.val13.x1, .s
      ", ", .v vec.val14.x0, .s ", ", .v vec.val14.x1, .s ", ", .v vec.val15.x0, .s ", ", .v vec.val15.x1, .s "]"]

end LFA.SV.SseDouble32
