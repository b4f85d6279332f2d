/-
  Generated by tools/sv_gen.py from detail/short_vec_avx512_double_*.hpp.
-/
import Verif.SV.Base
set_option linter.unusedVariables false
set_option autoImplicit false

namespace LFA.SV.Avx512Double8

/-- members of `short_vec<double, 8>` (detail/short_vec_avx512_double_8.hpp:47) -/
structure V where
  val : M512d

/-- lanes, from low to high -/
def V.lanes (v : V) : List (BitVec 64) := SV.lanes v.val

/-- `mask_type` -/
abbrev Mask := BitVec 8

/-- constructor (detail/short_vec_avx512_double_8.hpp:59-62) -/
def bcast (E : FEnv) (data : BitVec 64) : V := ⟨_mm512_set1_pd data⟩

/-- constructor (detail/short_vec_avx512_double_8.hpp:70-73) -/
def ofRegs (E : FEnv) (val : M512d) : V := ⟨val⟩

/-- `load` (detail/short_vec_avx512_double_8.hpp:214-218) -/
def load (E : FEnv) (m : Mem 64) (self : V) (data : Int) : Option V := do
  let t1 ← _mm512_loadu_pd m data
  let val : M512d := t1
  some ⟨val⟩

/-- `store` (detail/short_vec_avx512_double_8.hpp:227-231) -/
def store (E : FEnv) (self : V) (data : Int) : Option (Writes 64) := do
  let w1 ← _mm512_storeu_pd data self.val
  some w1

/-- `sqrt` (detail/short_vec_avx512_double_8.hpp:207-212) -/
def sqrt (E : FEnv) (self : V) : V := ofRegs E (_mm512_sqrt_pd E self.val)

/-- constructor (detail/short_vec_avx512_double_8.hpp:64-68) -/
def ofPtr (E : FEnv) (m : Mem 64) (data : Int) : Option V := do
  let v1 ← load E m ⟨(uninit : M512d)⟩ data
  some ⟨v1.val⟩

/-- constructor (detail/short_vec_avx512_double_8.hpp:76-81) -/
def ofList (E : FEnv) (m : Mem 64) (il : Int) : Option V := do
  let v1 ← load E m ⟨(uninit : M512d)⟩ il
  some ⟨v1.val⟩

/-- `any` (detail/short_vec_avx512_double_8.hpp:84-90) -/
def any (E : FEnv) (self : V) : Bool :=
  (_mm512_test_epi64_mask (_mm512_castpd_si512 self.val) (_mm512_castpd_si512 self.val)) != 0

/-- `operator[]` (detail/short_vec_avx512_double_8.hpp:92-118) -/
def opIndex (E : FEnv) (self : V) (i : BitVec 32) : BitVec 64 :=
  let buf0 : M128d := (uninit : M128d)
  let buf0 : M128d := if BitVec.slt i (4 : BitVec 32) then if BitVec.slt i (2 : BitVec 32) then _mm512_extractf64x2_pd self.val
      0 else _mm512_extractf64x2_pd self.val 1 else if BitVec.slt i (6 : BitVec 32) then _mm512_extractf64x2_pd self.val 2 else
      _mm512_extractf64x2_pd self.val 3
  let i : BitVec 32 := i &&& (1 : BitVec 32)
  if i == (0 : BitVec 32) then
    _mm_cvtsd_f64 buf0
  else
    let buf0 : M128d := _mm_shuffle_pd buf0 buf0 1
    _mm_cvtsd_f64 buf0

/-- `operator-=` (detail/short_vec_avx512_double_8.hpp:120-124) -/
def opSubAssign (E : FEnv) (self : V) (other : V) : V :=
  let val : M512d := _mm512_sub_pd E self.val other.val
  ⟨val⟩

/-- `operator-` (detail/short_vec_avx512_double_8.hpp:126-131) -/
def opSub (E : FEnv) (self : V) (other : V) : V := ofRegs E (_mm512_sub_pd E self.val other.val)

/-- `operator+=` (detail/short_vec_avx512_double_8.hpp:133-137) -/
def opAddAssign (E : FEnv) (self : V) (other : V) : V :=
  let val : M512d := _mm512_add_pd E self.val other.val
  ⟨val⟩

/-- `operator+` (detail/short_vec_avx512_double_8.hpp:139-144) -/
def opAdd (E : FEnv) (self : V) (other : V) : V := ofRegs E (_mm512_add_pd E self.val other.val)

/-- `operator*=` (detail/short_vec_avx512_double_8.hpp:146-150) -/
def opMulAssign (E : FEnv) (self : V) (other : V) : V :=
  let val : M512d := _mm512_mul_pd E self.val other.val
  ⟨val⟩

/-- `operator*` (detail/short_vec_avx512_double_8.hpp:152-157) -/
def opMul (E : FEnv) (self : V) (other : V) : V := ofRegs E (_mm512_mul_pd E self.val other.val)

/-- `operator/=` (detail/short_vec_avx512_double_8.hpp:159-163) -/
def opDivAssign (E : FEnv) (self : V) (other : V) : V :=
  let val : M512d := _mm512_div_pd E self.val other.val
  ⟨val⟩

/-- `operator/` (detail/short_vec_avx512_double_8.hpp:165-170) -/
def opDiv (E : FEnv) (self : V) (other : V) : V := ofRegs E (_mm512_div_pd E self.val other.val)

/-- `operator<` (detail/short_vec_avx512_double_8.hpp:172-177) -/
def opLt (E : FEnv) (self : V) (other : V) : Mask :=
  ((promote (_mm512_cmp_pd_mask E self.val other.val _CMP_LT_OS)) <<< 0).setWidth 8

/-- `operator<=` (detail/short_vec_avx512_double_8.hpp:179-184) -/
def opLe (E : FEnv) (self : V) (other : V) : Mask :=
  ((promote (_mm512_cmp_pd_mask E self.val other.val _CMP_LE_OS)) <<< 0).setWidth 8

/-- `operator==` (detail/short_vec_avx512_double_8.hpp:186-191) -/
def opEq (E : FEnv) (self : V) (other : V) : Mask :=
  ((promote (_mm512_cmp_pd_mask E self.val other.val _CMP_EQ_OQ)) <<< 0).setWidth 8

/-- `operator>` (detail/short_vec_avx512_double_8.hpp:193-198) -/
def opGt (E : FEnv) (self : V) (other : V) : Mask :=
  ((promote (_mm512_cmp_pd_mask E self.val other.val _CMP_GT_OS)) <<< 0).setWidth 8

/-- `operator>=` (detail/short_vec_avx512_double_8.hpp:200-205) -/
def opGe (E : FEnv) (self : V) (other : V) : Mask :=
  ((promote (_mm512_cmp_pd_mask E self.val other.val _CMP_GE_OS)) <<< 0).setWidth 8

/-- `load_aligned` (detail/short_vec_avx512_double_8.hpp:220-225) -/
def load_aligned (E : FEnv) (m : Mem 64) (self : V) (data : Int) : Option V := do
  assertAligned 8 data 64
  let t1 ← _mm512_load_pd m data
  let val : M512d := t1
  some ⟨val⟩

/-- `store_aligned` (detail/short_vec_avx512_double_8.hpp:233-238) -/
def store_aligned (E : FEnv) (self : V) (data : Int) : Option (Writes 64) := do
  assertAligned 8 data 64
  let w1 ← _mm512_store_pd data self.val
  some w1

/-- `store_nt` (detail/short_vec_avx512_double_8.hpp:240-245) -/
def store_nt (E : FEnv) (self : V) (data : Int) : Option (Writes 64) := do
  assertAligned 8 data 64
  let w1 ← _mm512_stream_pd data self.val
  some w1

/-- `gather` (detail/short_vec_avx512_double_8.hpp:247-253) -/
def gather (E : FEnv) (m : Mem 64) (mo : Mem 32) (self : V) (ptr : Int) (offsets : Int) : Option V := do
  let indices : M256i := (uninit : M256i)
  let t1 ← _mm256_loadu_si256 mo offsets
  let indices : M256i := t1
  let t2 ← _mm512_i32gather_pd m indices ptr 8
  let val : M512d := t2
  some ⟨val⟩

/-- `scatter` (detail/short_vec_avx512_double_8.hpp:255-261) -/
def scatter (E : FEnv) (mo : Mem 32) (self : V) (ptr : Int) (offsets : Int) : Option (Writes 64) := do
  let indices : M256i := (uninit : M256i)
  let t1 ← _mm256_loadu_si256 mo offsets
  let indices : M256i := t1
  let w2 ← _mm512_i32scatter_pd ptr indices self.val 8
  some w2

/-- `blend` (detail/short_vec_avx512_double_8.hpp:263-267) -/
def blend (E : FEnv) (self : V) (mask : Mask) (other : V) : V :=
  let val : M512d := _mm512_mask_blend_pd (((promote mask).sshiftRight 0).setWidth 8) self.val other.val
  ⟨val⟩

/-- `operator<<`, free function (detail/short_vec_avx512_double_8.hpp:273-277) -/
def opStore (E : FEnv) (data : Int) (vec : V) : Option (Writes 64) := do
  let w1 ← store E vec data
  some w1

/-- `sqrt`, free function (detail/short_vec_avx512_double_8.hpp:283-287) -/
def sqrtFn (E : FEnv) (vec : V) : V := sqrt E vec

/-- `operator<<`, free function (detail/short_vec_avx512_double_8.hpp:289-300) -/
def print (E : FEnv) (vec : V) : List (Out 64) :=
  [.s "[", .v vec.val.x0.x0.x0, .s ", ", .v vec.val.x0.x0.x1, .s ", ", .v vec.val.x0.x1.x0, .s ", ", .v vec.val.x0.x1.x1, .s
      ", ", .v vec.val.x1.x0.x0, .s ", ", .v vec.val.x1.x0.x1, .s ", ", .v vec.val.x1.x1.x0, .s ", ", .v vec.val.x1.x1.x1, .s
      "]"]

end LFA.SV.Avx512Double8

namespace LFA.SV.Avx512Double16

/-- members of `short_vec<double, 16>` (detail/short_vec_avx512_double_16.hpp:48) -/
structure V where
  val0 : M512d
  val1 : M512d

/-- lanes, from low to high -/
def V.lanes (v : V) : List (BitVec 64) := SV.lanes v.val0 ++ (SV.lanes v.val1)

/-- `mask_type` -/
abbrev Mask := BitVec 16

/-- constructor (detail/short_vec_avx512_double_16.hpp:61-65) -/
def bcast (E : FEnv) (data : BitVec 64) : V := ⟨_mm512_set1_pd data, _mm512_set1_pd data⟩

/-- constructor (detail/short_vec_avx512_double_16.hpp:73-77) -/
def ofRegs (E : FEnv) (val1 : M512d) (val2 : M512d) : V := ⟨val1, val2⟩

/-- `load` (detail/short_vec_avx512_double_16.hpp:236-241) -/
def load (E : FEnv) (m : Mem 64) (self : V) (data : Int) : Option V := do
  let t1 ← _mm512_loadu_pd m (data + 0)
  let val0 : M512d := t1
  let t2 ← _mm512_loadu_pd m (data + 8)
  let val1 : M512d := t2
  some ⟨val0, val1⟩

/-- `store` (detail/short_vec_avx512_double_16.hpp:251-256) -/
def store (E : FEnv) (self : V) (data : Int) : Option (Writes 64) := do
  let w1 ← _mm512_storeu_pd (data + 0) self.val0
  let w2 ← _mm512_storeu_pd (data + 8) self.val1
  some (w1 ++ w2)

/-- `sqrt` (detail/short_vec_avx512_double_16.hpp:228-234) -/
def sqrt (E : FEnv) (self : V) : V := ofRegs E (_mm512_sqrt_pd E self.val0) (_mm512_sqrt_pd E self.val1)

/-- constructor (detail/short_vec_avx512_double_16.hpp:67-71) -/
def ofPtr (E : FEnv) (m : Mem 64) (data : Int) : Option V := do
  let v1 ← load E m ⟨(uninit : M512d), (uninit : M512d)⟩ data
  some ⟨v1.val0, v1.val1⟩

/-- constructor (detail/short_vec_avx512_double_16.hpp:80-85) -/
def ofList (E : FEnv) (m : Mem 64) (il : Int) : Option V := do
  let v1 ← load E m ⟨(uninit : M512d), (uninit : M512d)⟩ il
  some ⟨v1.val0, v1.val1⟩

/-- `any` (detail/short_vec_avx512_double_16.hpp:88-95) -/
def any (E : FEnv) (self : V) : Bool :=
  let buf0 : M512d := _mm512_or_pd self.val0 self.val1
  (_mm512_test_epi64_mask (_mm512_castpd_si512 buf0) (_mm512_castpd_si512 buf0)) != 0

/-- `operator[]` (detail/short_vec_avx512_double_16.hpp:97-126) -/
def opIndex (E : FEnv) (self : V) (i : BitVec 32) : Option (BitVec 64) := do
  let t1 ← dyn [self.val0, self.val1] (i.sshiftRight 3)
  let buf0 : M512d := t1
  let i : BitVec 32 := i &&& (7 : BitVec 32)
  let buf1 : M128d := (uninit : M128d)
  let buf1 : M128d := if BitVec.slt i (4 : BitVec 32) then if BitVec.slt i (2 : BitVec 32) then _mm512_extractf64x2_pd buf0 0
      else _mm512_extractf64x2_pd buf0 1 else if BitVec.slt i (6 : BitVec 32) then _mm512_extractf64x2_pd buf0 2 else
      _mm512_extractf64x2_pd buf0 3
  let i : BitVec 32 := i &&& (1 : BitVec 32)
  if i == (0 : BitVec 32) then do
    some (_mm_cvtsd_f64 buf1)
  else do
    let buf1 : M128d := _mm_shuffle_pd buf1 buf1 1
    some (_mm_cvtsd_f64 buf1)

/-- `operator-=` (detail/short_vec_avx512_double_16.hpp:128-133) -/
def opSubAssign (E : FEnv) (self : V) (other : V) : V :=
  let val0 : M512d := _mm512_sub_pd E self.val0 other.val0
  let val1 : M512d := _mm512_sub_pd E self.val1 other.val1
  ⟨val0, val1⟩

/-- `operator-` (detail/short_vec_avx512_double_16.hpp:135-141) -/
def opSub (E : FEnv) (self : V) (other : V) : V :=
  ofRegs E (_mm512_sub_pd E self.val0 other.val0) (_mm512_sub_pd E self.val1 other.val1)

/-- `operator+=` (detail/short_vec_avx512_double_16.hpp:143-148) -/
def opAddAssign (E : FEnv) (self : V) (other : V) : V :=
  let val0 : M512d := _mm512_add_pd E self.val0 other.val0
  let val1 : M512d := _mm512_add_pd E self.val1 other.val1
  ⟨val0, val1⟩

/-- `operator+` (detail/short_vec_avx512_double_16.hpp:150-156) -/
def opAdd (E : FEnv) (self : V) (other : V) : V :=
  ofRegs E (_mm512_add_pd E self.val0 other.val0) (_mm512_add_pd E self.val1 other.val1)

/-- `operator*=` (detail/short_vec_avx512_double_16.hpp:158-163) -/
def opMulAssign (E : FEnv) (self : V) (other : V) : V :=
  let val0 : M512d := _mm512_mul_pd E self.val0 other.val0
  let val1 : M512d := _mm512_mul_pd E self.val1 other.val1
  ⟨val0, val1⟩

/-- `operator*` (detail/short_vec_avx512_double_16.hpp:165-171) -/
def opMul (E : FEnv) (self : V) (other : V) : V :=
  ofRegs E (_mm512_mul_pd E self.val0 other.val0) (_mm512_mul_pd E self.val1 other.val1)

/-- `operator/=` (detail/short_vec_avx512_double_16.hpp:173-178) -/
def opDivAssign (E : FEnv) (self : V) (other : V) : V :=
  let val0 : M512d := _mm512_div_pd E self.val0 other.val0
  let val1 : M512d := _mm512_div_pd E self.val1 other.val1
  ⟨val0, val1⟩

/-- `operator/` (detail/short_vec_avx512_double_16.hpp:180-186) -/
def opDiv (E : FEnv) (self : V) (other : V) : V :=
  ofRegs E (_mm512_div_pd E self.val0 other.val0) (_mm512_div_pd E self.val1 other.val1)

/-- `operator<` (detail/short_vec_avx512_double_16.hpp:188-194) -/
def opLt (E : FEnv) (self : V) (other : V) : Option Mask := do
  let t1 ← iadd ((promote (_mm512_cmp_pd_mask E self.val0 other.val0 _CMP_LT_OS)) <<< 0) ((promote (_mm512_cmp_pd_mask E
      self.val1 other.val1 _CMP_LT_OS)) <<< 8)
  some (t1.setWidth 16)

/-- `operator<=` (detail/short_vec_avx512_double_16.hpp:196-202) -/
def opLe (E : FEnv) (self : V) (other : V) : Option Mask := do
  let t1 ← iadd ((promote (_mm512_cmp_pd_mask E self.val0 other.val0 _CMP_LE_OS)) <<< 0) ((promote (_mm512_cmp_pd_mask E
      self.val1 other.val1 _CMP_LE_OS)) <<< 8)
  some (t1.setWidth 16)

/-- `operator==` (detail/short_vec_avx512_double_16.hpp:204-210) -/
def opEq (E : FEnv) (self : V) (other : V) : Option Mask := do
  let t1 ← iadd ((promote (_mm512_cmp_pd_mask E self.val0 other.val0 _CMP_EQ_OQ)) <<< 0) ((promote (_mm512_cmp_pd_mask E
      self.val1 other.val1 _CMP_EQ_OQ)) <<< 8)
  some (t1.setWidth 16)

/-- `operator>` (detail/short_vec_avx512_double_16.hpp:212-218) -/
def opGt (E : FEnv) (self : V) (other : V) : Option Mask := do
  let t1 ← iadd ((promote (_mm512_cmp_pd_mask E self.val0 other.val0 _CMP_GT_OS)) <<< 0) ((promote (_mm512_cmp_pd_mask E
      self.val1 other.val1 _CMP_GT_OS)) <<< 8)
  some (t1.setWidth 16)

/-- `operator>=` (detail/short_vec_avx512_double_16.hpp:220-226) -/
def opGe (E : FEnv) (self : V) (other : V) : Option Mask := do
  let t1 ← iadd ((promote (_mm512_cmp_pd_mask E self.val0 other.val0 _CMP_GE_OS)) <<< 0) ((promote (_mm512_cmp_pd_mask E
      self.val1 other.val1 _CMP_GE_OS)) <<< 8)
  some (t1.setWidth 16)

/-- `load_aligned` (detail/short_vec_avx512_double_16.hpp:243-249) -/
def load_aligned (E : FEnv) (m : Mem 64) (self : V) (data : Int) : Option V := do
  assertAligned 8 data 64
  let t1 ← _mm512_load_pd m (data + 0)
  let val0 : M512d := t1
  let t2 ← _mm512_load_pd m (data + 8)
  let val1 : M512d := t2
  some ⟨val0, val1⟩

/-- `store_aligned` (detail/short_vec_avx512_double_16.hpp:258-264) -/
def store_aligned (E : FEnv) (self : V) (data : Int) : Option (Writes 64) := do
  assertAligned 8 data 64
  let w1 ← _mm512_store_pd (data + 0) self.val0
  let w2 ← _mm512_store_pd (data + 8) self.val1
  some (w1 ++ w2)

/-- `store_nt` (detail/short_vec_avx512_double_16.hpp:266-272) -/
def store_nt (E : FEnv) (self : V) (data : Int) : Option (Writes 64) := do
  assertAligned 8 data 64
  let w1 ← _mm512_stream_pd (data + 0) self.val0
  let w2 ← _mm512_stream_pd (data + 8) self.val1
  some (w1 ++ w2)

/-- `gather` (detail/short_vec_avx512_double_16.hpp:274-282) -/
def gather (E : FEnv) (m : Mem 64) (mo : Mem 32) (self : V) (ptr : Int) (offsets : Int) : Option V := do
  let indices : M256i := (uninit : M256i)
  let t1 ← _mm256_loadu_si256 mo offsets
  let indices : M256i := t1
  let t2 ← _mm512_i32gather_pd m indices ptr 8
  let val0 : M512d := t2
  let t3 ← _mm256_loadu_si256 mo (offsets + 8)
  let indices : M256i := t3
  let t4 ← _mm512_i32gather_pd m indices ptr 8
  let val1 : M512d := t4
  some ⟨val0, val1⟩

/-- `scatter` (detail/short_vec_avx512_double_16.hpp:284-292) -/
def scatter (E : FEnv) (mo : Mem 32) (self : V) (ptr : Int) (offsets : Int) : Option (Writes 64) := do
  let indices : M256i := (uninit : M256i)
  let t1 ← _mm256_loadu_si256 mo offsets
  let indices : M256i := t1
  let w2 ← _mm512_i32scatter_pd ptr indices self.val0 8
  let t3 ← _mm256_loadu_si256 mo (offsets + 8)
  let indices : M256i := t3
  let w4 ← _mm512_i32scatter_pd ptr indices self.val1 8
  some (w2 ++ w4)

/-- `blend` (detail/short_vec_avx512_double_16.hpp:294-299) -/
def blend (E : FEnv) (self : V) (mask : Mask) (other : V) : V :=
  let val0 : M512d := _mm512_mask_blend_pd (((promote mask).sshiftRight 0).setWidth 8) self.val0 other.val0
  let val1 : M512d := _mm512_mask_blend_pd ((((promote mask).sshiftRight 8) &&& (255 : BitVec 32)).setWidth 8) self.val1
      other.val1
  ⟨val0, val1⟩

/-- `operator<<`, free function (detail/short_vec_avx512_double_16.hpp:305-309) -/
def opStore (E : FEnv) (data : Int) (vec : V) : Option (Writes 64) := do
  let w1 ← store E vec data
  some w1

/-- `sqrt`, free function (detail/short_vec_avx512_double_16.hpp:315-319) -/
def sqrtFn (E : FEnv) (vec : V) : V := sqrt E vec

/-- `operator<<`, free function (detail/short_vec_avx512_double_16.hpp:321-335) -/
def print (E : FEnv) (vec : V) : List (Out 64) :=
  [.s "[", .v vec.val0.x0.x0.x0, .s ", ", .v vec.val0.x0.x0.x1, .s ", ", .v vec.val0.x0.x1.x0, .s ", ", .v vec.val0.x0.x1.x1,
      .s ", ", .v vec.val0.x1.x0.x0, .s ", ", .v vec.val0.x1.x0.x1, .s ", ", .v vec.val0.x1.x1.x0, .s ", ", .v
      vec.val0.x1.x1.x1, .s ", ", .v vec.val1.x0.x0.x0, .s ", ", .v vec.val1.x0.x0.x1, .s ", ", .v vec.val1.x0.x1.x0, .s ", ",
      .v vec.val1.x0.x1.x1, .s ", ", .v vec.val1.x1.x0.x0, .s ", ", .v vec.val1.x1.x0.x1, .s ", ", .v vec.val1.x1.x1.x0, .s
      ", ", .v vec.val1.x1.x1.x1, .s "]"]

end LFA.SV.Avx512Double16

namespace LFA.SV.Avx512Double32

/-- members of `short_vec<double, 32>` (detail/short_vec_avx512_double_32.hpp:47) -/
structure V where
  val0 : M512d
  val1 : M512d
  val2 : M512d
  val3 : M512d

/-- lanes, from low to high -/
def V.lanes (v : V) : List (BitVec 64) := SV.lanes v.val0 ++ (SV.lanes v.val1 ++ (SV.lanes v.val2 ++ (SV.lanes v.val3)))

/-- `mask_type` -/
abbrev Mask := BitVec 32

/-- constructor (detail/short_vec_avx512_double_32.hpp:60-66) -/
def bcast (E : FEnv) (data : BitVec 64) : V :=
  ⟨_mm512_set1_pd data, _mm512_set1_pd data, _mm512_set1_pd data, _mm512_set1_pd data⟩

/-- constructor (detail/short_vec_avx512_double_32.hpp:74-80) -/
def ofRegs (E : FEnv) (val1 : M512d) (val2 : M512d) (val3 : M512d) (val4 : M512d) : V := ⟨val1, val2, val3, val4⟩

/-- `load` (detail/short_vec_avx512_double_32.hpp:269-276) -/
def load (E : FEnv) (m : Mem 64) (self : V) (data : Int) : Option V := do
  let t1 ← _mm512_loadu_pd m (data + 0)
  let val0 : M512d := t1
  let t2 ← _mm512_loadu_pd m (data + 8)
  let val1 : M512d := t2
  let t3 ← _mm512_loadu_pd m (data + 16)
  let val2 : M512d := t3
  let t4 ← _mm512_loadu_pd m (data + 24)
  let val3 : M512d := t4
  some ⟨val0, val1, val2, val3⟩

/-- `store` (detail/short_vec_avx512_double_32.hpp:288-295) -/
def store (E : FEnv) (self : V) (data : Int) : Option (Writes 64) := do
  let w1 ← _mm512_storeu_pd (data + 0) self.val0
  let w2 ← _mm512_storeu_pd (data + 8) self.val1
  let w3 ← _mm512_storeu_pd (data + 16) self.val2
  let w4 ← _mm512_storeu_pd (data + 24) self.val3
  some (w1 ++ w2 ++ w3 ++ w4)

/-- `sqrt` (detail/short_vec_avx512_double_32.hpp:259-267) -/
def sqrt (E : FEnv) (self : V) : V :=
  ofRegs E (_mm512_sqrt_pd E self.val0) (_mm512_sqrt_pd E self.val1) (_mm512_sqrt_pd E self.val2) (_mm512_sqrt_pd E self.val3)

/-- constructor (detail/short_vec_avx512_double_32.hpp:68-72) -/
def ofPtr (E : FEnv) (m : Mem 64) (data : Int) : Option V := do
  let v1 ← load E m ⟨(uninit : M512d), (uninit : M512d), (uninit : M512d), (uninit : M512d)⟩ data
  some ⟨v1.val0, v1.val1, v1.val2, v1.val3⟩

/-- constructor (detail/short_vec_avx512_double_32.hpp:83-88) -/
def ofList (E : FEnv) (m : Mem 64) (il : Int) : Option V := do
  let v1 ← load E m ⟨(uninit : M512d), (uninit : M512d), (uninit : M512d), (uninit : M512d)⟩ il
  some ⟨v1.val0, v1.val1, v1.val2, v1.val3⟩

/-- `any` (detail/short_vec_avx512_double_32.hpp:91-100) -/
def any (E : FEnv) (self : V) : Bool :=
  let buf0 : M512d := _mm512_or_pd (_mm512_or_pd self.val0 self.val1) (_mm512_or_pd self.val2 self.val3)
  (_mm512_test_epi64_mask (_mm512_castpd_si512 buf0) (_mm512_castpd_si512 buf0)) != 0

/-- `operator[]` (detail/short_vec_avx512_double_32.hpp:102-131) -/
def opIndex (E : FEnv) (self : V) (i : BitVec 32) : Option (BitVec 64) := do
  let t1 ← dyn [self.val0, self.val1, self.val2, self.val3] (i.sshiftRight 3)
  let buf0 : M512d := t1
  let i : BitVec 32 := i &&& (7 : BitVec 32)
  let buf1 : M128d := (uninit : M128d)
  let buf1 : M128d := if BitVec.slt i (4 : BitVec 32) then if BitVec.slt i (2 : BitVec 32) then _mm512_extractf64x2_pd buf0 0
      else _mm512_extractf64x2_pd buf0 1 else if BitVec.slt i (6 : BitVec 32) then _mm512_extractf64x2_pd buf0 2 else
      _mm512_extractf64x2_pd buf0 3
  let i : BitVec 32 := i &&& (1 : BitVec 32)
  if i == (0 : BitVec 32) then do
    some (_mm_cvtsd_f64 buf1)
  else do
    let buf1 : M128d := _mm_shuffle_pd buf1 buf1 1
    some (_mm_cvtsd_f64 buf1)

/-- `operator-=` (detail/short_vec_avx512_double_32.hpp:133-140) -/
def opSubAssign (E : FEnv) (self : V) (other : V) : V :=
  let val0 : M512d := _mm512_sub_pd E self.val0 other.val0
  let val1 : M512d := _mm512_sub_pd E self.val1 other.val1
  let val2 : M512d := _mm512_sub_pd E self.val2 other.val2
  let val3 : M512d := _mm512_sub_pd E self.val3 other.val3
  ⟨val0, val1, val2, val3⟩

/-- `operator-` (detail/short_vec_avx512_double_32.hpp:142-150) -/
def opSub (E : FEnv) (self : V) (other : V) : V :=
  ofRegs E (_mm512_sub_pd E self.val0 other.val0) (_mm512_sub_pd E self.val1 other.val1) (_mm512_sub_pd E self.val2 other.val2)
      (_mm512_sub_pd E self.val3 other.val3)

/-- `operator+=` (detail/short_vec_avx512_double_32.hpp:152-159) -/
def opAddAssign (E : FEnv) (self : V) (other : V) : V :=
  let val0 : M512d := _mm512_add_pd E self.val0 other.val0
  let val1 : M512d := _mm512_add_pd E self.val1 other.val1
  let val2 : M512d := _mm512_add_pd E self.val2 other.val2
  let val3 : M512d := _mm512_add_pd E self.val3 other.val3
  ⟨val0, val1, val2, val3⟩

/-- `operator+` (detail/short_vec_avx512_double_32.hpp:161-169) -/
def opAdd (E : FEnv) (self : V) (other : V) : V :=
  ofRegs E (_mm512_add_pd E self.val0 other.val0) (_mm512_add_pd E self.val1 other.val1) (_mm512_add_pd E self.val2 other.val2)
      (_mm512_add_pd E self.val3 other.val3)

/-- `operator*=` (detail/short_vec_avx512_double_32.hpp:171-178) -/
def opMulAssign (E : FEnv) (self : V) (other : V) : V :=
  let val0 : M512d := _mm512_mul_pd E self.val0 other.val0
  let val1 : M512d := _mm512_mul_pd E self.val1 other.val1
  let val2 : M512d := _mm512_mul_pd E self.val2 other.val2
  let val3 : M512d := _mm512_mul_pd E self.val3 other.val3
  ⟨val0, val1, val2, val3⟩

/-- `operator*` (detail/short_vec_avx512_double_32.hpp:180-188) -/
def opMul (E : FEnv) (self : V) (other : V) : V :=
  ofRegs E (_mm512_mul_pd E self.val0 other.val0) (_mm512_mul_pd E self.val1 other.val1) (_mm512_mul_pd E self.val2 other.val2)
      (_mm512_mul_pd E self.val3 other.val3)

/-- `operator/=` (detail/short_vec_avx512_double_32.hpp:190-197) -/
def opDivAssign (E : FEnv) (self : V) (other : V) : V :=
  let val0 : M512d := _mm512_div_pd E self.val0 other.val0
  let val1 : M512d := _mm512_div_pd E self.val1 other.val1
  let val2 : M512d := _mm512_div_pd E self.val2 other.val2
  let val3 : M512d := _mm512_div_pd E self.val3 other.val3
  ⟨val0, val1, val2, val3⟩

/-- `operator/` (detail/short_vec_avx512_double_32.hpp:199-207) -/
def opDiv (E : FEnv) (self : V) (other : V) : V :=
  ofRegs E (_mm512_div_pd E self.val0 other.val0) (_mm512_div_pd E self.val1 other.val1) (_mm512_div_pd E self.val2 other.val2)
      (_mm512_div_pd E self.val3 other.val3)

/-- `operator<` (detail/short_vec_avx512_double_32.hpp:209-217) -/
def opLt (E : FEnv) (self : V) (other : V) : Option Mask := do
  let t1 ← iadd ((promote (_mm512_cmp_pd_mask E self.val0 other.val0 _CMP_LT_OS)) <<< 0) ((promote (_mm512_cmp_pd_mask E
      self.val1 other.val1 _CMP_LT_OS)) <<< 8)
  let t2 ← iadd t1 ((promote (_mm512_cmp_pd_mask E self.val2 other.val2 _CMP_LT_OS)) <<< 16)
  let t3 ← iadd t2 ((promote (_mm512_cmp_pd_mask E self.val3 other.val3 _CMP_LT_OS)) <<< 24)
  some t3

/-- `operator<=` (detail/short_vec_avx512_double_32.hpp:219-227) -/
def opLe (E : FEnv) (self : V) (other : V) : Option Mask := do
  let t1 ← iadd ((promote (_mm512_cmp_pd_mask E self.val0 other.val0 _CMP_LE_OS)) <<< 0) ((promote (_mm512_cmp_pd_mask E
      self.val1 other.val1 _CMP_LE_OS)) <<< 8)
  let t2 ← iadd t1 ((promote (_mm512_cmp_pd_mask E self.val2 other.val2 _CMP_LE_OS)) <<< 16)
  let t3 ← iadd t2 ((promote (_mm512_cmp_pd_mask E self.val3 other.val3 _CMP_LE_OS)) <<< 24)
  some t3

/-- `operator==` (detail/short_vec_avx512_double_32.hpp:229-237) -/
def opEq (E : FEnv) (self : V) (other : V) : Option Mask := do
  let t1 ← iadd ((promote (_mm512_cmp_pd_mask E self.val0 other.val0 _CMP_EQ_OQ)) <<< 0) ((promote (_mm512_cmp_pd_mask E
      self.val1 other.val1 _CMP_EQ_OQ)) <<< 8)
  let t2 ← iadd t1 ((promote (_mm512_cmp_pd_mask E self.val2 other.val2 _CMP_EQ_OQ)) <<< 16)
  let t3 ← iadd t2 ((promote (_mm512_cmp_pd_mask E self.val3 other.val3 _CMP_EQ_OQ)) <<< 24)
  some t3

/-- `operator>` (detail/short_vec_avx512_double_32.hpp:239-247) -/
def opGt (E : FEnv) (self : V) (other : V) : Option Mask := do
  let t1 ← iadd ((promote (_mm512_cmp_pd_mask E self.val0 other.val0 _CMP_GT_OS)) <<< 0) ((promote (_mm512_cmp_pd_mask E
      self.val1 other.val1 _CMP_GT_OS)) <<< 8)
  let t2 ← iadd t1 ((promote (_mm512_cmp_pd_mask E self.val2 other.val2 _CMP_GT_OS)) <<< 16)
  let t3 ← iadd t2 ((promote (_mm512_cmp_pd_mask E self.val3 other.val3 _CMP_GT_OS)) <<< 24)
  some t3

/-- `operator>=` (detail/short_vec_avx512_double_32.hpp:249-257) -/
def opGe (E : FEnv) (self : V) (other : V) : Option Mask := do
  let t1 ← iadd ((promote (_mm512_cmp_pd_mask E self.val0 other.val0 _CMP_GE_OS)) <<< 0) ((promote (_mm512_cmp_pd_mask E
      self.val1 other.val1 _CMP_GE_OS)) <<< 8)
  let t2 ← iadd t1 ((promote (_mm512_cmp_pd_mask E self.val2 other.val2 _CMP_GE_OS)) <<< 16)
  let t3 ← iadd t2 ((promote (_mm512_cmp_pd_mask E self.val3 other.val3 _CMP_GE_OS)) <<< 24)
  some t3

/-- `load_aligned` (detail/short_vec_avx512_double_32.hpp:278-286) -/
def load_aligned (E : FEnv) (m : Mem 64) (self : V) (data : Int) : Option V := do
  assertAligned 8 data 64
  let t1 ← _mm512_load_pd m (data + 0)
  let val0 : M512d := t1
  let t2 ← _mm512_load_pd m (data + 8)
  let val1 : M512d := t2
  let t3 ← _mm512_load_pd m (data + 16)
  let val2 : M512d := t3
  let t4 ← _mm512_load_pd m (data + 24)
  let val3 : M512d := t4
  some ⟨val0, val1, val2, val3⟩

/-- `store_aligned` (detail/short_vec_avx512_double_32.hpp:297-305) -/
def store_aligned (E : FEnv) (self : V) (data : Int) : Option (Writes 64) := do
  assertAligned 8 data 64
  let w1 ← _mm512_store_pd (data + 0) self.val0
  let w2 ← _mm512_store_pd (data + 8) self.val1
  let w3 ← _mm512_store_pd (data + 16) self.val2
  let w4 ← _mm512_store_pd (data + 24) self.val3
  some (w1 ++ w2 ++ w3 ++ w4)

/-- `store_nt` (detail/short_vec_avx512_double_32.hpp:307-315) -/
def store_nt (E : FEnv) (self : V) (data : Int) : Option (Writes 64) := do
  assertAligned 8 data 64
  let w1 ← _mm512_stream_pd (data + 0) self.val0
  let w2 ← _mm512_stream_pd (data + 8) self.val1
  let w3 ← _mm512_stream_pd (data + 16) self.val2
  let w4 ← _mm512_stream_pd (data + 24) self.val3
  some (w1 ++ w2 ++ w3 ++ w4)

/-- `gather` (detail/short_vec_avx512_double_32.hpp:317-329) -/
def gather (E : FEnv) (m : Mem 64) (mo : Mem 32) (self : V) (ptr : Int) (offsets : Int) : Option V := do
  let indices : M256i := (uninit : M256i)
  let t1 ← _mm256_loadu_si256 mo offsets
  let indices : M256i := t1
  let t2 ← _mm512_i32gather_pd m indices ptr 8
  let val0 : M512d := t2
  let t3 ← _mm256_loadu_si256 mo (offsets + 8)
  let indices : M256i := t3
  let t4 ← _mm512_i32gather_pd m indices ptr 8
  let val1 : M512d := t4
  let t5 ← _mm256_loadu_si256 mo (offsets + 16)
  let indices : M256i := t5
  let t6 ← _mm512_i32gather_pd m indices ptr 8
  let val2 : M512d := t6
  let t7 ← _mm256_loadu_si256 mo (offsets + 24)
  let indices : M256i := t7
  let t8 ← _mm512_i32gather_pd m indices ptr 8
  let val3 : M512d := t8
  some ⟨val0, val1, val2, val3⟩

/-- `scatter` (detail/short_vec_avx512_double_32.hpp:331-343) -/
def scatter (E : FEnv) (mo : Mem 32) (self : V) (ptr : Int) (offsets : Int) : Option (Writes 64) := do
  let indices : M256i := (uninit : M256i)
  let t1 ← _mm256_loadu_si256 mo offsets
  let indices : M256i := t1
  let w2 ← _mm512_i32scatter_pd ptr indices self.val0 8
  let t3 ← _mm256_loadu_si256 mo (offsets + 8)
  let indices : M256i := t3
  let w4 ← _mm512_i32scatter_pd ptr indices self.val1 8
  let t5 ← _mm256_loadu_si256 mo (offsets + 16)
  let indices : M256i := t5
  let w6 ← _mm512_i32scatter_pd ptr indices self.val2 8
  let t7 ← _mm256_loadu_si256 mo (offsets + 24)
  let indices : M256i := t7
  let w8 ← _mm512_i32scatter_pd ptr indices self.val3 8
  some (w2 ++ w4 ++ w6 ++ w8)

/-- `blend` (detail/short_vec_avx512_double_32.hpp:345-352) -/
def blend (E : FEnv) (self : V) (mask : Mask) (other : V) : V :=
  let val0 : M512d := _mm512_mask_blend_pd ((mask >>> 0).setWidth 8) self.val0 other.val0
  let val1 : M512d := _mm512_mask_blend_pd (((mask >>> 8) &&& (255 : BitVec 32)).setWidth 8) self.val1 other.val1
  let val2 : M512d := _mm512_mask_blend_pd (((mask >>> 16) &&& (255 : BitVec 32)).setWidth 8) self.val2 other.val2
  let val3 : M512d := _mm512_mask_blend_pd (((mask >>> 24) &&& (255 : BitVec 32)).setWidth 8) self.val3 other.val3
  ⟨val0, val1, val2, val3⟩

/-- `operator<<`, free function (detail/short_vec_avx512_double_32.hpp:358-362) -/
def opStore (E : FEnv) (data : Int) (vec : V) : Option (Writes 64) := do
  let w1 ← store E vec data
  some w1

/-- `sqrt`, free function (detail/short_vec_avx512_double_32.hpp:368-372) -/
def sqrtFn (E : FEnv) (vec : V) : V := sqrt E vec

/-- `operator<<`, free function (detail/short_vec_avx512_double_32.hpp:374-394) -/
def print (E : FEnv) (vec : V) : List (Out 64) :=
  [.s "[", .v vec.val0.x0.x0.x0, .s ", ", .v vec.val0.x0.x0.x1, .s ", ", .v vec.val0.x0.x1.x0, .s ", ", .v vec.val0.x0.x1.x1,
      .s ", ", .v vec.val0.x1.x0.x0, .s ", ", .v vec.val0.x1.x0.x1, .s ", ", .v vec.val0.x1.x1.x0, .s ", ", .v
      vec.val0.x1.x1.x1, .s ", ", .v vec.val1.x0.x0.x0, .s ", ", .v vec.val1.x0.x0.x1, .s ", ", .v vec.val1.x0.x1.x0, .s ", ",
      .v vec.val1.x0.x1.x1, .s ", ", .v vec.val1.x1.x0.x0, .s ", ", .v vec.val1.x1.x0.x1, .s ", ", .v vec.val1.x1.x1.x0, .s
      ", ", .v vec.val1.x1.x1.x1, .s ", ", .v vec.val2.x0.x0.x0, .s ", ", .v vec.val2.x0.x0.x1, .s ", ", .v vec.val2.x0.x1.x0,
      .s ", ", .v vec.val2.x0.x1.x1, .s ", ", .v vec.val2.x1.x0.x0, .s ", ", .v vec.val2.x1.x0.x1, .s ", ", .v
      vec.val2.x1.x1.x0, .s ", ", .v vec.val2.x1.x1.x1, .s ", ", .v vec.val3.x0.x0.x0, .s ", ", .v vec.val3.x0.x0.x1, .s ", ",
      .v vec.val3.x0.x1.x0, .s ", ", .v vec.val3.x0.x1.x1, .s ", ", .v vec.val3.x1.x0.x0, .s ", ", .v vec.val3.x1.x0.x1, .s
      ", ", .v vec.val3.x1.x1.x0, .s ", ", .v vec.val3.x1.x1.x1, .s "]"]

end LFA.SV.Avx512Double32
