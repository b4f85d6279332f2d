/-
  Generated by tools/sv_gen.py from detail/short_vec_avx512_float_*.hpp.
-/
import Verif.SV.Base
set_option linter.unusedVariables false
set_option autoImplicit false

namespace LFA.SV.Avx512Float16

/-- members of `short_vec<float, 16>` (detail/short_vec_avx512_float_16.hpp:50) -/
structure V where
  val : M512

/-- lanes, from low to high -/
def V.lanes (v : V) : List (BitVec 32) := SV.lanes v.val

/-- `sqrt_reference<float, 16>`: keeps the vector until the square root is needed -/
structure SqrtRef where
  vec : V

/-- `mask_type` -/
abbrev Mask := BitVec 16

/-- constructor (detail/short_vec_avx512_float_16.hpp:62-65) -/
def bcast (E : FEnv) (data : BitVec 32) : V := ⟨_mm512_set1_ps data⟩

/-- constructor (detail/short_vec_avx512_float_16.hpp:73-76) -/
def ofRegs (E : FEnv) (val : M512) : V := ⟨val⟩

/-- `load` (detail/short_vec_avx512_float_16.hpp:231-235) -/
def load (E : FEnv) (m : Mem 32) (self : V) (data : Int) : Option V := do
  let t1 ← _mm512_loadu_ps m data
  let val : M512 := t1
  some ⟨val⟩

/-- `store` (detail/short_vec_avx512_float_16.hpp:244-248) -/
def store (E : FEnv) (self : V) (data : Int) : Option (Writes 32) := do
  let w1 ← _mm512_storeu_ps data self.val
  some w1

/-- `sqrt` (detail/short_vec_avx512_float_16.hpp:224-229) -/
def sqrt (E : FEnv) (self : V) : V := ofRegs E (_mm512_sqrt_ps E self.val)

/-- constructor of `sqrt_reference` (detail/short_vec_avx512_float_16.hpp:317-320) -/
def ofSqrt (E : FEnv) (other : SqrtRef) : V := ⟨_mm512_sqrt_ps E other.vec.val⟩

/-- constructor (detail/short_vec_avx512_float_16.hpp:67-71) -/
def ofPtr (E : FEnv) (m : Mem 32) (data : Int) : Option V := do
  let v1 ← load E m ⟨(uninit : M512)⟩ data
  some ⟨v1.val⟩

/-- constructor (detail/short_vec_avx512_float_16.hpp:79-84) -/
def ofList (E : FEnv) (m : Mem 32) (il : Int) : Option V := do
  let v1 ← load E m ⟨(uninit : M512)⟩ il
  some ⟨v1.val⟩

/-- `any` (detail/short_vec_avx512_float_16.hpp:90-96) -/
def any (E : FEnv) (self : V) : Bool :=
  (_mm512_test_epi64_mask (_mm512_castps_si512 self.val) (_mm512_castps_si512 self.val)) != 0

/-- `operator[]` (detail/short_vec_avx512_float_16.hpp:98-129) -/
def opIndex (E : FEnv) (self : V) (i : BitVec 32) : BitVec 32 :=
  let buf0 : M128 := (uninit : M128)
  let buf0 : M128 := if BitVec.slt i (8 : BitVec 32) then if BitVec.slt i (4 : BitVec 32) then _mm512_extractf32x4_ps self.val
      0 else _mm512_extractf32x4_ps self.val 1 else if BitVec.slt i (12 : BitVec 32) then _mm512_extractf32x4_ps self.val 2
      else _mm512_extractf32x4_ps self.val 3
  let i : BitVec 32 := i &&& (3 : BitVec 32)
  if i == (3 : BitVec 32) then
    _mm_cvtss_f32 (_mm_shuffle_ps buf0 buf0 3)
  else
    if i == (2 : BitVec 32) then
      _mm_cvtss_f32 (_mm_shuffle_ps buf0 buf0 2)
    else
      if i == (1 : BitVec 32) then
        _mm_cvtss_f32 (_mm_shuffle_ps buf0 buf0 1)
      else
        _mm_cvtss_f32 buf0

/-- `operator-=` (detail/short_vec_avx512_float_16.hpp:131-135) -/
def opSubAssign (E : FEnv) (self : V) (other : V) : V :=
  let val : M512 := _mm512_sub_ps E self.val other.val
  ⟨val⟩

/-- `operator-` (detail/short_vec_avx512_float_16.hpp:137-142) -/
def opSub (E : FEnv) (self : V) (other : V) : V := ofRegs E (_mm512_sub_ps E self.val other.val)

/-- `operator+=` (detail/short_vec_avx512_float_16.hpp:144-148) -/
def opAddAssign (E : FEnv) (self : V) (other : V) : V :=
  let val : M512 := _mm512_add_ps E self.val other.val
  ⟨val⟩

/-- `operator+` (detail/short_vec_avx512_float_16.hpp:150-155) -/
def opAdd (E : FEnv) (self : V) (other : V) : V := ofRegs E (_mm512_add_ps E self.val other.val)

/-- `operator*=` (detail/short_vec_avx512_float_16.hpp:157-161) -/
def opMulAssign (E : FEnv) (self : V) (other : V) : V :=
  let val : M512 := _mm512_mul_ps E self.val other.val
  ⟨val⟩

/-- `operator*` (detail/short_vec_avx512_float_16.hpp:163-168) -/
def opMul (E : FEnv) (self : V) (other : V) : V := ofRegs E (_mm512_mul_ps E self.val other.val)

/-- `operator/=` (detail/short_vec_avx512_float_16.hpp:170-174) -/
def opDivAssign (E : FEnv) (self : V) (other : V) : V :=
  let val : M512 := _mm512_mul_ps E self.val (_mm512_rcp14_ps E other.val)
  ⟨val⟩

/-- `operator/` (detail/short_vec_avx512_float_16.hpp:179-184) -/
def opDiv (E : FEnv) (self : V) (other : V) : V := ofRegs E (_mm512_mul_ps E self.val (_mm512_rcp14_ps E other.val))

/-- `operator<` (detail/short_vec_avx512_float_16.hpp:189-194) -/
def opLt (E : FEnv) (self : V) (other : V) : Mask :=
  ((promote (_mm512_cmp_ps_mask E self.val other.val _CMP_LT_OS)) <<< 0).setWidth 16

/-- `operator<=` (detail/short_vec_avx512_float_16.hpp:196-201) -/
def opLe (E : FEnv) (self : V) (other : V) : Mask :=
  ((promote (_mm512_cmp_ps_mask E self.val other.val _CMP_LE_OS)) <<< 0).setWidth 16

/-- `operator==` (detail/short_vec_avx512_float_16.hpp:203-208) -/
def opEq (E : FEnv) (self : V) (other : V) : Mask :=
  ((promote (_mm512_cmp_ps_mask E self.val other.val _CMP_EQ_OQ)) <<< 0).setWidth 16

/-- `operator>` (detail/short_vec_avx512_float_16.hpp:210-215) -/
def opGt (E : FEnv) (self : V) (other : V) : Mask :=
  ((promote (_mm512_cmp_ps_mask E self.val other.val _CMP_GT_OS)) <<< 0).setWidth 16

/-- `operator>=` (detail/short_vec_avx512_float_16.hpp:217-222) -/
def opGe (E : FEnv) (self : V) (other : V) : Mask :=
  ((promote (_mm512_cmp_ps_mask E self.val other.val _CMP_GE_OS)) <<< 0).setWidth 16

/-- `load_aligned` (detail/short_vec_avx512_float_16.hpp:237-242) -/
def load_aligned (E : FEnv) (m : Mem 32) (self : V) (data : Int) : Option V := do
  assertAligned 4 data 64
  let t1 ← _mm512_load_ps m data
  let val : M512 := t1
  some ⟨val⟩

/-- `store_aligned` (detail/short_vec_avx512_float_16.hpp:250-255) -/
def store_aligned (E : FEnv) (self : V) (data : Int) : Option (Writes 32) := do
  assertAligned 4 data 64
  let w1 ← _mm512_store_ps data self.val
  some w1

/-- `store_nt` (detail/short_vec_avx512_float_16.hpp:257-262) -/
def store_nt (E : FEnv) (self : V) (data : Int) : Option (Writes 32) := do
  assertAligned 4 data 64
  let w1 ← _mm512_stream_ps data self.val
  some w1

/-- `gather` (detail/short_vec_avx512_float_16.hpp:264-271) -/
def gather (E : FEnv) (m : Mem 32) (mo : Mem 32) (self : V) (ptr : Int) (offsets : Int) : Option V := do
  let indices : M512i := (uninit : M512i)
  assertAligned 4 offsets 64
  let t1 ← _mm512_load_epi32 mo offsets
  let indices : M512i := t1
  let t2 ← _mm512_i32gather_ps m indices ptr 4
  let val : M512 := t2
  some ⟨val⟩

/-- `scatter` (detail/short_vec_avx512_float_16.hpp:273-280) -/
def scatter (E : FEnv) (mo : Mem 32) (self : V) (ptr : Int) (offsets : Int) : Option (Writes 32) := do
  let indices : M512i := (uninit : M512i)
  assertAligned 4 offsets 64
  let t1 ← _mm512_load_epi32 mo offsets
  let indices : M512i := t1
  let w2 ← _mm512_i32scatter_ps ptr indices self.val 4
  some w2

/-- `blend` (detail/short_vec_avx512_float_16.hpp:282-286) -/
def blend (E : FEnv) (self : V) (mask : Mask) (other : V) : V :=
  let val : M512 := _mm512_mask_blend_ps (((promote mask).sshiftRight 0).setWidth 16) self.val other.val
  ⟨val⟩

/-- `operator<<`, free function (detail/short_vec_avx512_float_16.hpp:292-296) -/
def opStore (E : FEnv) (data : Int) (vec : V) : Option (Writes 32) := do
  let w1 ← store E vec data
  some w1

/-- `operator/=` of `sqrt_reference` (detail/short_vec_avx512_float_16.hpp:322-326) -/
def opDivAssignSqrt (E : FEnv) (self : V) (other : SqrtRef) : V :=
  let val : M512 := _mm512_mul_ps E self.val (_mm512_rsqrt14_ps E other.vec.val)
  ⟨val⟩

/-- `operator/` of `sqrt_reference` (detail/short_vec_avx512_float_16.hpp:328-333) -/
def opDivSqrt (E : FEnv) (self : V) (other : SqrtRef) : V :=
  ofRegs E (_mm512_mul_ps E self.val (_mm512_rsqrt14_ps E other.vec.val))

/-- `sqrt`, free function (detail/short_vec_avx512_float_16.hpp:335-339) -/
def sqrtFn (E : FEnv) (vec : V) : SqrtRef := SqrtRef.mk vec

/-- `operator<<`, free function (detail/short_vec_avx512_float_16.hpp:341-353) -/
def print (E : FEnv) (vec : V) : List (Out 32) :=
  [.s "[", .v vec.val.x0.x0.x0, .s ", ", .v vec.val.x0.x0.x1, .s ", ", .v vec.val.x0.x0.x2, .s ", ", .v vec.val.x0.x0.x3, .s
      ", ", .v vec.val.x0.x1.x0, .s ", ", .v vec.val.x0.x1.x1, .s ", ", .v vec.val.x0.x1.x2, .s ", ", .v vec.val.x0.x1.x3, .s
      ", ", .v vec.val.x1.x0.x0, .s ", ", .v vec.val.x1.x0.x1, .s ", ", .v vec.val.x1.x0.x2, .s ", ", .v vec.val.x1.x0.x3, .s
      ", ", .v vec.val.x1.x1.x0, .s ", ", .v vec.val.x1.x1.x1, .s ", ", .v vec.val.x1.x1.x2, .s ", ", .v vec.val.x1.x1.x3, .s
      "]"]

end LFA.SV.Avx512Float16

namespace LFA.SV.Avx512Float32

/-- members of `short_vec<float, 32>` (detail/short_vec_avx512_float_32.hpp:51) -/
structure V where
  val0 : M512
  val1 : M512

/-- lanes, from low to high -/
def V.lanes (v : V) : List (BitVec 32) := SV.lanes v.val0 ++ (SV.lanes v.val1)

/-- `sqrt_reference<float, 32>`: keeps the vector until the square root is needed -/
structure SqrtRef where
  vec : V

/-- `mask_type` -/
abbrev Mask := BitVec 32

/-- constructor (detail/short_vec_avx512_float_32.hpp:63-67) -/
def bcast (E : FEnv) (data : BitVec 32) : V := ⟨_mm512_set1_ps data, _mm512_set1_ps data⟩

/-- constructor (detail/short_vec_avx512_float_32.hpp:75-79) -/
def ofRegs (E : FEnv) (val1 : M512) (val2 : M512) : V := ⟨val1, val2⟩

/-- `load` (detail/short_vec_avx512_float_32.hpp:252-257) -/
def load (E : FEnv) (m : Mem 32) (self : V) (data : Int) : Option V := do
  let t1 ← _mm512_loadu_ps m (data + 0)
  let val0 : M512 := t1
  let t2 ← _mm512_loadu_ps m (data + 16)
  let val1 : M512 := t2
  some ⟨val0, val1⟩

/-- `store` (detail/short_vec_avx512_float_32.hpp:267-272) -/
def store (E : FEnv) (self : V) (data : Int) : Option (Writes 32) := do
  let w1 ← _mm512_storeu_ps (data + 0) self.val0
  let w2 ← _mm512_storeu_ps (data + 16) self.val1
  some (w1 ++ w2)

/-- `sqrt` (detail/short_vec_avx512_float_32.hpp:244-250) -/
def sqrt (E : FEnv) (self : V) : V := ofRegs E (_mm512_sqrt_ps E self.val0) (_mm512_sqrt_ps E self.val1)

/-- constructor of `sqrt_reference` (detail/short_vec_avx512_float_32.hpp:348-352) -/
def ofSqrt (E : FEnv) (other : SqrtRef) : V := ⟨_mm512_sqrt_ps E other.vec.val0, _mm512_sqrt_ps E other.vec.val1⟩

/-- constructor (detail/short_vec_avx512_float_32.hpp:69-73) -/
def ofPtr (E : FEnv) (m : Mem 32) (data : Int) : Option V := do
  let v1 ← load E m ⟨(uninit : M512), (uninit : M512)⟩ data
  some ⟨v1.val0, v1.val1⟩

/-- constructor (detail/short_vec_avx512_float_32.hpp:82-87) -/
def ofList (E : FEnv) (m : Mem 32) (il : Int) : Option V := do
  let v1 ← load E m ⟨(uninit : M512), (uninit : M512)⟩ il
  some ⟨v1.val0, v1.val1⟩

/-- `any` (detail/short_vec_avx512_float_32.hpp:93-100) -/
def any (E : FEnv) (self : V) : Bool :=
  let buf0 : M512 := _mm512_or_ps self.val0 self.val1
  (_mm512_test_epi64_mask (_mm512_castps_si512 buf0) (_mm512_castps_si512 buf0)) != 0

/-- `operator[]` (detail/short_vec_avx512_float_32.hpp:102-136) -/
def opIndex (E : FEnv) (self : V) (i : BitVec 32) : Option (BitVec 32) := do
  let t1 ← dyn [self.val0, self.val1] (i.sshiftRight 4)
  let buf0 : M512 := t1
  let i : BitVec 32 := i &&& (15 : BitVec 32)
  let buf1 : M128 := (uninit : M128)
  let buf1 : M128 := if BitVec.slt i (8 : BitVec 32) then if BitVec.slt i (4 : BitVec 32) then _mm512_extractf32x4_ps buf0 0
      else _mm512_extractf32x4_ps buf0 1 else if BitVec.slt i (12 : BitVec 32) then _mm512_extractf32x4_ps buf0 2 else
      _mm512_extractf32x4_ps buf0 3
  let i : BitVec 32 := i &&& (3 : BitVec 32)
  if i == (3 : BitVec 32) then do
    some (_mm_cvtss_f32 (_mm_shuffle_ps buf1 buf1 3))
  else do
    if i == (2 : BitVec 32) then do
      some (_mm_cvtss_f32 (_mm_shuffle_ps buf1 buf1 2))
    else do
      if i == (1 : BitVec 32) then do
        some (_mm_cvtss_f32 (_mm_shuffle_ps buf1 buf1 1))
      else do
        some (_mm_cvtss_f32 buf1)

/-- `operator-=` (detail/short_vec_avx512_float_32.hpp:138-143) -/
def opSubAssign (E : FEnv) (self : V) (other : V) : V :=
  let val0 : M512 := _mm512_sub_ps E self.val0 other.val0
  let val1 : M512 := _mm512_sub_ps E self.val1 other.val1
  ⟨val0, val1⟩

/-- `operator-` (detail/short_vec_avx512_float_32.hpp:145-151) -/
def opSub (E : FEnv) (self : V) (other : V) : V :=
  ofRegs E (_mm512_sub_ps E self.val0 other.val0) (_mm512_sub_ps E self.val1 other.val1)

/-- `operator+=` (detail/short_vec_avx512_float_32.hpp:153-158) -/
def opAddAssign (E : FEnv) (self : V) (other : V) : V :=
  let val0 : M512 := _mm512_add_ps E self.val0 other.val0
  let val1 : M512 := _mm512_add_ps E self.val1 other.val1
  ⟨val0, val1⟩

/-- `operator+` (detail/short_vec_avx512_float_32.hpp:160-166) -/
def opAdd (E : FEnv) (self : V) (other : V) : V :=
  ofRegs E (_mm512_add_ps E self.val0 other.val0) (_mm512_add_ps E self.val1 other.val1)

/-- `operator*=` (detail/short_vec_avx512_float_32.hpp:168-173) -/
def opMulAssign (E : FEnv) (self : V) (other : V) : V :=
  let val0 : M512 := _mm512_mul_ps E self.val0 other.val0
  let val1 : M512 := _mm512_mul_ps E self.val1 other.val1
  ⟨val0, val1⟩

/-- `operator*` (detail/short_vec_avx512_float_32.hpp:175-181) -/
def opMul (E : FEnv) (self : V) (other : V) : V :=
  ofRegs E (_mm512_mul_ps E self.val0 other.val0) (_mm512_mul_ps E self.val1 other.val1)

/-- `operator/=` (detail/short_vec_avx512_float_32.hpp:183-188) -/
def opDivAssign (E : FEnv) (self : V) (other : V) : V :=
  let val0 : M512 := _mm512_mul_ps E self.val0 (_mm512_rcp14_ps E other.val0)
  let val1 : M512 := _mm512_mul_ps E self.val1 (_mm512_rcp14_ps E other.val1)
  ⟨val0, val1⟩

/-- `operator/` (detail/short_vec_avx512_float_32.hpp:193-199) -/
def opDiv (E : FEnv) (self : V) (other : V) : V :=
  ofRegs E (_mm512_mul_ps E self.val0 (_mm512_rcp14_ps E other.val0)) (_mm512_mul_ps E self.val1 (_mm512_rcp14_ps E other.val1))

/-- `operator<` (detail/short_vec_avx512_float_32.hpp:204-210) -/
def opLt (E : FEnv) (self : V) (other : V) : Option Mask := do
  let t1 ← iadd ((promote (_mm512_cmp_ps_mask E self.val0 other.val0 _CMP_LT_OS)) <<< 0) ((promote (_mm512_cmp_ps_mask E
      self.val1 other.val1 _CMP_LT_OS)) <<< 16)
  some t1

/-- `operator<=` (detail/short_vec_avx512_float_32.hpp:212-218) -/
def opLe (E : FEnv) (self : V) (other : V) : Option Mask := do
  let t1 ← iadd ((promote (_mm512_cmp_ps_mask E self.val0 other.val0 _CMP_LE_OS)) <<< 0) ((promote (_mm512_cmp_ps_mask E
      self.val1 other.val1 _CMP_LE_OS)) <<< 16)
  some t1

/-- `operator==` (detail/short_vec_avx512_float_32.hpp:220-226) -/
def opEq (E : FEnv) (self : V) (other : V) : Option Mask := do
  let t1 ← iadd ((promote (_mm512_cmp_ps_mask E self.val0 other.val0 _CMP_EQ_OQ)) <<< 0) ((promote (_mm512_cmp_ps_mask E
      self.val1 other.val1 _CMP_EQ_OQ)) <<< 16)
  some t1

/-- `operator>` (detail/short_vec_avx512_float_32.hpp:228-234) -/
def opGt (E : FEnv) (self : V) (other : V) : Option Mask := do
  let t1 ← iadd ((promote (_mm512_cmp_ps_mask E self.val0 other.val0 _CMP_GT_OS)) <<< 0) ((promote (_mm512_cmp_ps_mask E
      self.val1 other.val1 _CMP_GT_OS)) <<< 16)
  some t1

/-- `operator>=` (detail/short_vec_avx512_float_32.hpp:236-242) -/
def opGe (E : FEnv) (self : V) (other : V) : Option Mask := do
  let t1 ← iadd ((promote (_mm512_cmp_ps_mask E self.val0 other.val0 _CMP_GE_OS)) <<< 0) ((promote (_mm512_cmp_ps_mask E
      self.val1 other.val1 _CMP_GE_OS)) <<< 16)
  some t1

/-- `load_aligned` (detail/short_vec_avx512_float_32.hpp:259-265) -/
def load_aligned (E : FEnv) (m : Mem 32) (self : V) (data : Int) : Option V := do
  assertAligned 4 data 64
  let t1 ← _mm512_load_ps m (data + 0)
  let val0 : M512 := t1
  let t2 ← _mm512_load_ps m (data + 16)
  let val1 : M512 := t2
  some ⟨val0, val1⟩

/-- `store_aligned` (detail/short_vec_avx512_float_32.hpp:274-280) -/
def store_aligned (E : FEnv) (self : V) (data : Int) : Option (Writes 32) := do
  assertAligned 4 data 64
  let w1 ← _mm512_store_ps (data + 0) self.val0
  let w2 ← _mm512_store_ps (data + 16) self.val1
  some (w1 ++ w2)

/-- `store_nt` (detail/short_vec_avx512_float_32.hpp:282-288) -/
def store_nt (E : FEnv) (self : V) (data : Int) : Option (Writes 32) := do
  assertAligned 4 data 64
  let w1 ← _mm512_stream_ps (data + 0) self.val0
  let w2 ← _mm512_stream_ps (data + 16) self.val1
  some (w1 ++ w2)

/-- `gather` (detail/short_vec_avx512_float_32.hpp:290-299) -/
def gather (E : FEnv) (m : Mem 32) (mo : Mem 32) (self : V) (ptr : Int) (offsets : Int) : Option V := do
  let indices : M512i := (uninit : M512i)
  assertAligned 4 offsets 64
  let t1 ← _mm512_load_epi32 mo offsets
  let indices : M512i := t1
  let t2 ← _mm512_i32gather_ps m indices ptr 4
  let val0 : M512 := t2
  let t3 ← _mm512_load_epi32 mo (offsets + 16)
  let indices : M512i := t3
  let t4 ← _mm512_i32gather_ps m indices ptr 4
  let val1 : M512 := t4
  some ⟨val0, val1⟩

/-- `scatter` (detail/short_vec_avx512_float_32.hpp:301-310) -/
def scatter (E : FEnv) (mo : Mem 32) (self : V) (ptr : Int) (offsets : Int) : Option (Writes 32) := do
  let indices : M512i := (uninit : M512i)
  assertAligned 4 offsets 64
  let t1 ← _mm512_load_epi32 mo offsets
  let indices : M512i := t1
  let w2 ← _mm512_i32scatter_ps ptr indices self.val0 4
  let t3 ← _mm512_load_epi32 mo (offsets + 16)
  let indices : M512i := t3
  let w4 ← _mm512_i32scatter_ps ptr indices self.val1 4
  some (w2 ++ w4)

/-- `blend` (detail/short_vec_avx512_float_32.hpp:312-317) -/
def blend (E : FEnv) (self : V) (mask : Mask) (other : V) : V :=
  let val0 : M512 := _mm512_mask_blend_ps ((mask >>> 0).setWidth 16) self.val0 other.val0
  let val1 : M512 := _mm512_mask_blend_ps (((mask >>> 16) &&& (65535 : BitVec 32)).setWidth 16) self.val1 other.val1
  ⟨val0, val1⟩

/-- `operator<<`, free function (detail/short_vec_avx512_float_32.hpp:323-327) -/
def opStore (E : FEnv) (data : Int) (vec : V) : Option (Writes 32) := do
  let w1 ← store E vec data
  some w1

/-- `operator/=` of `sqrt_reference` (detail/short_vec_avx512_float_32.hpp:354-359) -/
def opDivAssignSqrt (E : FEnv) (self : V) (other : SqrtRef) : V :=
  let val0 : M512 := _mm512_mul_ps E self.val0 (_mm512_rsqrt14_ps E other.vec.val0)
  let val1 : M512 := _mm512_mul_ps E self.val1 (_mm512_rsqrt14_ps E other.vec.val1)
  ⟨val0, val1⟩

/-- `operator/` of `sqrt_reference` (detail/short_vec_avx512_float_32.hpp:361-367) -/
def opDivSqrt (E : FEnv) (self : V) (other : SqrtRef) : V :=
  ofRegs E (_mm512_mul_ps E self.val0 (_mm512_rsqrt14_ps E other.vec.val0)) (_mm512_mul_ps E self.val1 (_mm512_rsqrt14_ps E
      other.vec.val1))

/-- `sqrt`, free function (detail/short_vec_avx512_float_32.hpp:369-373) -/
def sqrtFn (E : FEnv) (vec : V) : SqrtRef := SqrtRef.mk vec

/-- `operator<<`, free function (detail/short_vec_avx512_float_32.hpp:375-392) -/
def print (E : FEnv) (vec : V) : List (Out 32) :=
  [.s "[", .v vec.val0.x0.x0.x0, .s ", ", .v vec.val0.x0.x0.x1, .s ", ", .v vec.val0.x0.x0.x2, .s ", ", .v vec.val0.x0.x0.x3,
      .s ", ", .v vec.val0.x0.x1.x0, .s ", ", .v vec.val0.x0.x1.x1, .s ", ", .v vec.val0.x0.x1.x2, .s ", ", .v
      vec.val0.x0.x1.x3, .s ", ", .v vec.val0.x1.x0.x0, .s ", ", .v vec.val0.x1.x0.x1, .s ", ", .v vec.val0.x1.x0.x2, .s ", ",
      .v vec.val0.x1.x0.x3, .s ", ", .v vec.val0.x1.x1.x0, .s ", ", .v vec.val0.x1.x1.x1, .s ", ", .v vec.val0.x1.x1.x2, .s
      ", ", .v vec.val0.x1.x1.x3, .s ", ", .v vec.val1.x0.x0.x0, .s ", ", .v vec.val1.x0.x0.x1, .s ", ", .v vec.val1.x0.x0.x2,
      .s ", ", .v vec.val1.x0.x0.x3, .s ", ", .v vec.val1.x0.x1.x0, .s ", ", .v vec.val1.x0.x1.x1, .s ", ", .v
      vec.val1.x0.x1.x2, .s ", ", .v vec.val1.x0.x1.x3, .s ", ", .v vec.val1.x1.x0.x0, .s ", ", .v vec.val1.x1.x0.x1, .s ", ",
      .v vec.val1.x1.x0.x2, .s ", ", .v vec.val1.x1.x0.x3, .s ", ", .v vec.val1.x1.x1.x0, .s ", ", .v vec.val1.x1.x1.x1, .s
      ", ", .v vec.val1.x1.x1.x2, .s ", ", .v vec.val1.x1.x1.x3, .s "]"]

end LFA.SV.Avx512Float32
