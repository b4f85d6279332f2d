/-
  Generated by tools/sv_gen.py from detail/short_vec_neon_float_*.hpp.
-/
import Verif.SV.Base
set_option linter.unusedVariables false
set_option autoImplicit false

namespace LFA.SV.NeonFloat4

/-- members of `short_vec<float, 4>` (detail/short_vec_neon_float_4.hpp:39) -/
structure V where
  val : F32x4

/-- lanes, from low to high -/
def V.lanes (v : V) : List (BitVec 32) := SV.lanes v.val

/-- `mask_type` -/
abbrev Mask := U32x4

/-- constructor (detail/short_vec_neon_float_4.hpp:50-53) -/
def bcast (E : FEnv) (data : BitVec 32) : V := ⟨vdupq_n_f32 data⟩

/-- constructor (detail/short_vec_neon_float_4.hpp:60-63) -/
def ofRegs (E : FEnv) (val : F32x4) : V := ⟨val⟩

/-- `load` (detail/short_vec_neon_float_4.hpp:223-227) -/
def load (E : FEnv) (m : Mem 32) (self : V) (data : Int) : Option V := do
  let t1 ← vld1q_f32 m (data + 0)
  let val : F32x4 := t1
  some ⟨val⟩

/-- `store` (detail/short_vec_neon_float_4.hpp:236-240) -/
def store (E : FEnv) (self : V) (data : Int) : Option (Writes 32) := do
  let w1 ← vst1q_f32 data self.val
  some w1

/-- `sqrt` (detail/short_vec_neon_float_4.hpp:194-221; neon, neon_lp64) -/
def sqrt_neon (E : FEnv) (self : V) : V :=
  let x1 : F32x4 := vrsqrteq_f32 E self.val
  let vec_p_inf : U32x4 := vdupq_n_u32 (2139095040 : BitVec 32)
  let div_by_zero : U32x4 := vceqq_u32 vec_p_inf (vreinterpretq_u32_f32 x1)
  let x1 : F32x4 := vreinterpretq_f32_u32 (vandq_u32 (vmvnq_u32 div_by_zero) (vreinterpretq_u32_f32 x1))
  let x1 : F32x4 := vmulq_f32 E (vrsqrtsq_f32 E (vmulq_f32 E x1 x1) self.val) x1
  ofRegs E (vmulq_f32 E self.val x1)

/-- `sqrt` (detail/short_vec_neon_float_4.hpp:194-221; neon_prec, neon_prec_lp64) -/
def sqrt_neon_prec (E : FEnv) (self : V) : V :=
  let x1 : F32x4 := vrsqrteq_f32 E self.val
  let vec_p_inf : U32x4 := vdupq_n_u32 (2139095040 : BitVec 32)
  let div_by_zero : U32x4 := vceqq_u32 vec_p_inf (vreinterpretq_u32_f32 x1)
  let x1 : F32x4 := vreinterpretq_f32_u32 (vandq_u32 (vmvnq_u32 div_by_zero) (vreinterpretq_u32_f32 x1))
  let x1 : F32x4 := vmulq_f32 E (vrsqrtsq_f32 E (vmulq_f32 E x1 x1) self.val) x1
  let x1 : F32x4 := vmulq_f32 E (vrsqrtsq_f32 E (vmulq_f32 E x1 x1) self.val) x1
  ofRegs E (vmulq_f32 E self.val x1)

/-- constructor (detail/short_vec_neon_float_4.hpp:55-58) -/
def ofPtr (E : FEnv) (m : Mem 32) (data : Int) : Option V := do
  let t1 ← vld1q_f32 m (data + 0)
  some ⟨t1⟩

/-- constructor (detail/short_vec_neon_float_4.hpp:66-71) -/
def ofList (E : FEnv) (m : Mem 32) (il : Int) : Option V := do
  let v1 ← load E m ⟨(uninit : F32x4)⟩ il
  some ⟨v1.val⟩

/-- `operator-=` (detail/short_vec_neon_float_4.hpp:74-78) -/
def opSubAssign (E : FEnv) (self : V) (other : V) : V :=
  let val : F32x4 := vsubq_f32 E self.val other.val
  ⟨val⟩

/-- `operator-` (detail/short_vec_neon_float_4.hpp:80-84) -/
def opSub (E : FEnv) (self : V) (other : V) : V := ofRegs E (vsubq_f32 E self.val other.val)

/-- `operator+=` (detail/short_vec_neon_float_4.hpp:86-90) -/
def opAddAssign (E : FEnv) (self : V) (other : V) : V :=
  let val : F32x4 := vaddq_f32 E self.val other.val
  ⟨val⟩

/-- `operator+` (detail/short_vec_neon_float_4.hpp:92-97) -/
def opAdd (E : FEnv) (self : V) (other : V) : V :=
  let ret : V := ofRegs E (vaddq_f32 E self.val other.val)
  ret

/-- `operator*=` (detail/short_vec_neon_float_4.hpp:99-103) -/
def opMulAssign (E : FEnv) (self : V) (other : V) : V :=
  let val : F32x4 := vmulq_f32 E self.val other.val
  ⟨val⟩

/-- `operator*` (detail/short_vec_neon_float_4.hpp:105-110) -/
def opMul (E : FEnv) (self : V) (other : V) : V :=
  let ret : V := ofRegs E (vmulq_f32 E self.val other.val)
  ret

/-- `operator/=` (detail/short_vec_neon_float_4.hpp:118-134; neon, neon_lp64) -/
def opDivAssign_neon (E : FEnv) (self : V) (other : V) : V :=
  let reciprocal1 : F32x4 := vrecpeq_f32 E other.val
  let reciprocal1 : F32x4 := vmulq_f32 E (vrecpsq_f32 E other.val reciprocal1) reciprocal1
  let val : F32x4 := vmulq_f32 E self.val reciprocal1
  ⟨val⟩

/-- `operator/=` (detail/short_vec_neon_float_4.hpp:118-134; neon_prec, neon_prec_lp64) -/
def opDivAssign_neon_prec (E : FEnv) (self : V) (other : V) : V :=
  let reciprocal1 : F32x4 := vrecpeq_f32 E other.val
  let reciprocal1 : F32x4 := vmulq_f32 E (vrecpsq_f32 E other.val reciprocal1) reciprocal1
  let reciprocal1 : F32x4 := vmulq_f32 E (vrecpsq_f32 E other.val reciprocal1) reciprocal1
  let val : F32x4 := vmulq_f32 E self.val reciprocal1
  ⟨val⟩

/-- `operator/` (detail/short_vec_neon_float_4.hpp:142-161; neon, neon_lp64) -/
def opDiv_neon (E : FEnv) (self : V) (other : V) : V :=
  let reciprocal1 : F32x4 := vrecpeq_f32 E other.val
  let reciprocal1 : F32x4 := vmulq_f32 E (vrecpsq_f32 E other.val reciprocal1) reciprocal1
  let result : F32x4 := vmulq_f32 E self.val reciprocal1
  let ret : V := ofRegs E result
  ret

/-- `operator/` (detail/short_vec_neon_float_4.hpp:142-161; neon_prec, neon_prec_lp64) -/
def opDiv_neon_prec (E : FEnv) (self : V) (other : V) : V :=
  let reciprocal1 : F32x4 := vrecpeq_f32 E other.val
  let reciprocal1 : F32x4 := vmulq_f32 E (vrecpsq_f32 E other.val reciprocal1) reciprocal1
  let reciprocal1 : F32x4 := vmulq_f32 E (vrecpsq_f32 E other.val reciprocal1) reciprocal1
  let result : F32x4 := vmulq_f32 E self.val reciprocal1
  let ret : V := ofRegs E result
  ret

/-- `operator<` (detail/short_vec_neon_float_4.hpp:163-167) -/
def opLt (E : FEnv) (self : V) (other : V) : Mask := vcltq_f32 E self.val other.val

/-- `operator<=` (detail/short_vec_neon_float_4.hpp:169-173) -/
def opLe (E : FEnv) (self : V) (other : V) : Mask := vcaleq_f32 E self.val other.val

/-- `operator==` (detail/short_vec_neon_float_4.hpp:175-179) -/
def opEq (E : FEnv) (self : V) (other : V) : Mask := vcltq_f32 E self.val other.val

/-- `operator>` (detail/short_vec_neon_float_4.hpp:181-185) -/
def opGt (E : FEnv) (self : V) (other : V) : Mask := vcgtq_f32 E self.val other.val

/-- `operator>=` (detail/short_vec_neon_float_4.hpp:187-191) -/
def opGe (E : FEnv) (self : V) (other : V) : Mask := vcgeq_f32 E self.val other.val

/-- `load_aligned` (detail/short_vec_neon_float_4.hpp:229-234) -/
def load_aligned (E : FEnv) (m : Mem 32) (self : V) (data : Int) : Option V := do
  assertAligned 4 data 16
  let v1 ← load E m self data
  some ⟨v1.val⟩

/-- `store_aligned` (detail/short_vec_neon_float_4.hpp:242-247) -/
def store_aligned (E : FEnv) (self : V) (data : Int) : Option (Writes 32) := do
  assertAligned 4 data 16
  let w1 ← store E self data
  some w1

/-- `store_nt` (detail/short_vec_neon_float_4.hpp:249-268; neon, neon_prec) -/
def store_nt_neon (E : FEnv) (self : V) (data : Int) : Option (Writes 32) := do
  let w1 ← store E self data
  some w1

/-- `store_nt` (detail/short_vec_neon_float_4.hpp:249-268; neon_lp64, neon_prec_lp64) -/
def store_nt_neon_lp64 (E : FEnv) (self : V) (data : Int) : Option (Writes 32) := none

/-- `gather` (detail/short_vec_neon_float_4.hpp:271-280) -/
def gather (E : FEnv) (m : Mem 32) (mo : Mem 32) (self : V) (ptr : Int) (offsets : Int) : Option V := do
  let data : Mem 32 := localArr 32 4
  let t1 ← mo (offsets + 0)
  let t2 ← m (ptr + t1.toInt)
  let data ← wr data 0 t2
  let t3 ← mo (offsets + 1)
  let t4 ← m (ptr + t3.toInt)
  let data ← wr data 1 t4
  let t5 ← mo (offsets + 2)
  let t6 ← m (ptr + t5.toInt)
  let data ← wr data 2 t6
  let t7 ← mo (offsets + 3)
  let t8 ← m (ptr + t7.toInt)
  let data ← wr data 3 t8
  let v9 ← load E data self 0
  some ⟨v9.val⟩

/-- `scatter` (detail/short_vec_neon_float_4.hpp:283-291) -/
def scatter (E : FEnv) (mo : Mem 32) (self : V) (ptr : Int) (offsets : Int) : Option (Writes 32) := do
  let t1 ← mo (offsets + 0)
  let t2 ← mo (offsets + 1)
  let t3 ← mo (offsets + 2)
  let t4 ← mo (offsets + 3)
  some ([(ptr + t1.toInt, self.val.x0)] ++ [(ptr + t2.toInt, self.val.x1)] ++ [(ptr + t3.toInt, self.val.x2)] ++ [(ptr +
      t4.toInt, self.val.x3)])

/-- `operator<<`, free function (detail/short_vec_neon_float_4.hpp:297-301) -/
def opStore (E : FEnv) (data : Int) (vec : V) : Option (Writes 32) := do
  let w1 ← store E vec data
  some w1

/-- `sqrt`, free function (detail/short_vec_neon_float_4.hpp:303-307; neon, neon_lp64) -/
def sqrtFn_neon (E : FEnv) (vec : V) : V := sqrt_neon E vec

/-- `sqrt`, free function (detail/short_vec_neon_float_4.hpp:303-307; neon_prec, neon_prec_lp64) -/
def sqrtFn_neon_prec (E : FEnv) (vec : V) : V := sqrt_neon_prec E vec

/-- `operator<<`, free function (detail/short_vec_neon_float_4.hpp:309-318) -/
def print (E : FEnv) (vec : V) : List (Out 32) :=
  [.s "[", .v vec.val.x0, .s ", ", .v vec.val.x1, .s ", ", .v vec.val.x2, .s ", ", .v vec.val.x3, .s "]"]

end LFA.SV.NeonFloat4

namespace LFA.SV.NeonFloat8

/-- members of `short_vec<float, 8>` (detail/short_vec_neon_float_8.hpp:39) -/
structure V where
  val0 : F32x4
  val1 : F32x4

/-- lanes, from low to high -/
def V.lanes (v : V) : List (BitVec 32) := SV.lanes v.val0 ++ (SV.lanes v.val1)

/-- constructor (detail/short_vec_neon_float_8.hpp:50-54) -/
def bcast (E : FEnv) (data : BitVec 32) : V := ⟨vdupq_n_f32 data, vdupq_n_f32 data⟩

/-- constructor (detail/short_vec_neon_float_8.hpp:62-66) -/
def ofRegs (E : FEnv) (val1 : F32x4) (val2 : F32x4) : V := ⟨val1, val2⟩

/-- `load` (detail/short_vec_neon_float_8.hpp:222-227) -/
def load (E : FEnv) (m : Mem 32) (self : V) (data : Int) : Option V := do
  let t1 ← vld1q_f32 m (data + 0)
  let val0 : F32x4 := t1
  let t2 ← vld1q_f32 m (data + 4)
  let val1 : F32x4 := t2
  some ⟨val0, val1⟩

/-- `store` (detail/short_vec_neon_float_8.hpp:236-241) -/
def store (E : FEnv) (self : V) (data : Int) : Option (Writes 32) := do
  let w1 ← vst1q_f32 data self.val0
  let w2 ← vst1q_f32 (data + 4) self.val1
  some (w1 ++ w2)

/-- `sqrt` (detail/short_vec_neon_float_8.hpp:184-220; neon, neon_lp64) -/
def sqrt_neon (E : FEnv) (self : V) : V :=
  let x1 : F32x4 := vrsqrteq_f32 E self.val0
  let x2 : F32x4 := vrsqrteq_f32 E self.val1
  let vec_p_inf : U32x4 := vdupq_n_u32 (2139095040 : BitVec 32)
  let div_by_zero1 : U32x4 := vceqq_u32 vec_p_inf (vreinterpretq_u32_f32 x1)
  let div_by_zero2 : U32x4 := vceqq_u32 vec_p_inf (vreinterpretq_u32_f32 x2)
  let x1 : F32x4 := vreinterpretq_f32_u32 (vandq_u32 (vmvnq_u32 div_by_zero1) (vreinterpretq_u32_f32 x1))
  let x2 : F32x4 := vreinterpretq_f32_u32 (vandq_u32 (vmvnq_u32 div_by_zero2) (vreinterpretq_u32_f32 x2))
  let x1 : F32x4 := vmulq_f32 E (vrsqrtsq_f32 E (vmulq_f32 E x1 x1) self.val0) x1
  let x2 : F32x4 := vmulq_f32 E (vrsqrtsq_f32 E (vmulq_f32 E x2 x2) self.val1) x2
  let result1 : F32x4 := vmulq_f32 E self.val0 x1
  let result2 : F32x4 := vmulq_f32 E self.val1 x2
  let ret : V := ofRegs E result1 result2
  ret

/-- `sqrt` (detail/short_vec_neon_float_8.hpp:184-220; neon_prec, neon_prec_lp64) -/
def sqrt_neon_prec (E : FEnv) (self : V) : V :=
  let x1 : F32x4 := vrsqrteq_f32 E self.val0
  let x2 : F32x4 := vrsqrteq_f32 E self.val1
  let vec_p_inf : U32x4 := vdupq_n_u32 (2139095040 : BitVec 32)
  let div_by_zero1 : U32x4 := vceqq_u32 vec_p_inf (vreinterpretq_u32_f32 x1)
  let div_by_zero2 : U32x4 := vceqq_u32 vec_p_inf (vreinterpretq_u32_f32 x2)
  let x1 : F32x4 := vreinterpretq_f32_u32 (vandq_u32 (vmvnq_u32 div_by_zero1) (vreinterpretq_u32_f32 x1))
  let x2 : F32x4 := vreinterpretq_f32_u32 (vandq_u32 (vmvnq_u32 div_by_zero2) (vreinterpretq_u32_f32 x2))
  let x1 : F32x4 := vmulq_f32 E (vrsqrtsq_f32 E (vmulq_f32 E x1 x1) self.val0) x1
  let x2 : F32x4 := vmulq_f32 E (vrsqrtsq_f32 E (vmulq_f32 E x2 x2) self.val1) x2
  let x1 : F32x4 := vmulq_f32 E (vrsqrtsq_f32 E (vmulq_f32 E x1 x1) self.val0) x1
  let x2 : F32x4 := vmulq_f32 E (vrsqrtsq_f32 E (vmulq_f32 E x2 x2) self.val1) x2
  let result1 : F32x4 := vmulq_f32 E self.val0 x1
  let result2 : F32x4 := vmulq_f32 E self.val1 x2
  let ret : V := ofRegs E result1 result2
  ret

/-- constructor (detail/short_vec_neon_float_8.hpp:56-60) -/
def ofPtr (E : FEnv) (m : Mem 32) (data : Int) : Option V := do
  let v1 ← load E m ⟨(uninit : F32x4), (uninit : F32x4)⟩ data
  some ⟨v1.val0, v1.val1⟩

/-- constructor (detail/short_vec_neon_float_8.hpp:69-74) -/
def ofList (E : FEnv) (m : Mem 32) (il : Int) : Option V := do
  let v1 ← load E m ⟨(uninit : F32x4), (uninit : F32x4)⟩ il
  some ⟨v1.val0, v1.val1⟩

/-- `operator-=` (detail/short_vec_neon_float_8.hpp:77-82) -/
def opSubAssign (E : FEnv) (self : V) (other : V) : V :=
  let val0 : F32x4 := vsubq_f32 E self.val0 other.val0
  let val1 : F32x4 := vsubq_f32 E self.val1 other.val1
  ⟨val0, val1⟩

/-- `operator-` (detail/short_vec_neon_float_8.hpp:84-90) -/
def opSub (E : FEnv) (self : V) (other : V) : V :=
  ofRegs E (vsubq_f32 E self.val0 other.val0) (vsubq_f32 E self.val1 other.val1)

/-- `operator+=` (detail/short_vec_neon_float_8.hpp:92-97) -/
def opAddAssign (E : FEnv) (self : V) (other : V) : V :=
  let val0 : F32x4 := vaddq_f32 E self.val0 other.val0
  let val1 : F32x4 := vaddq_f32 E self.val1 other.val1
  ⟨val0, val1⟩

/-- `operator+` (detail/short_vec_neon_float_8.hpp:99-106) -/
def opAdd (E : FEnv) (self : V) (other : V) : V :=
  let ret : V := ofRegs E (vaddq_f32 E self.val0 other.val0) (vaddq_f32 E self.val1 other.val1)
  ret

/-- `operator*=` (detail/short_vec_neon_float_8.hpp:108-113) -/
def opMulAssign (E : FEnv) (self : V) (other : V) : V :=
  let val0 : F32x4 := vmulq_f32 E self.val0 other.val0
  let val1 : F32x4 := vmulq_f32 E self.val1 other.val1
  ⟨val0, val1⟩

/-- `operator*` (detail/short_vec_neon_float_8.hpp:115-122) -/
def opMul (E : FEnv) (self : V) (other : V) : V :=
  let ret : V := ofRegs E (vmulq_f32 E self.val0 other.val0) (vmulq_f32 E self.val1 other.val1)
  ret

/-- `operator/=` (detail/short_vec_neon_float_8.hpp:130-150; neon, neon_lp64) -/
def opDivAssign_neon (E : FEnv) (self : V) (other : V) : V :=
  let reciprocal1 : F32x4 := vrecpeq_f32 E other.val0
  let reciprocal2 : F32x4 := vrecpeq_f32 E other.val1
  let reciprocal1 : F32x4 := vmulq_f32 E (vrecpsq_f32 E other.val0 reciprocal1) reciprocal1
  let reciprocal2 : F32x4 := vmulq_f32 E (vrecpsq_f32 E other.val1 reciprocal2) reciprocal2
  let val0 : F32x4 := vmulq_f32 E self.val0 reciprocal1
  let val1 : F32x4 := vmulq_f32 E self.val1 reciprocal2
  ⟨val0, val1⟩

/-- `operator/=` (detail/short_vec_neon_float_8.hpp:130-150; neon_prec, neon_prec_lp64) -/
def opDivAssign_neon_prec (E : FEnv) (self : V) (other : V) : V :=
  let reciprocal1 : F32x4 := vrecpeq_f32 E other.val0
  let reciprocal2 : F32x4 := vrecpeq_f32 E other.val1
  let reciprocal1 : F32x4 := vmulq_f32 E (vrecpsq_f32 E other.val0 reciprocal1) reciprocal1
  let reciprocal2 : F32x4 := vmulq_f32 E (vrecpsq_f32 E other.val1 reciprocal2) reciprocal2
  let reciprocal1 : F32x4 := vmulq_f32 E (vrecpsq_f32 E other.val0 reciprocal1) reciprocal1
  let reciprocal2 : F32x4 := vmulq_f32 E (vrecpsq_f32 E other.val1 reciprocal2) reciprocal2
  let val0 : F32x4 := vmulq_f32 E self.val0 reciprocal1
  let val1 : F32x4 := vmulq_f32 E self.val1 reciprocal2
  ⟨val0, val1⟩

/-- `operator/` (detail/short_vec_neon_float_8.hpp:158-181; neon, neon_lp64) -/
def opDiv_neon (E : FEnv) (self : V) (other : V) : V :=
  let reciprocal1 : F32x4 := vrecpeq_f32 E other.val0
  let reciprocal2 : F32x4 := vrecpeq_f32 E other.val1
  let reciprocal1 : F32x4 := vmulq_f32 E (vrecpsq_f32 E other.val0 reciprocal1) reciprocal1
  let reciprocal2 : F32x4 := vmulq_f32 E (vrecpsq_f32 E other.val1 reciprocal2) reciprocal2
  let result1 : F32x4 := vmulq_f32 E self.val0 reciprocal1
  let result2 : F32x4 := vmulq_f32 E self.val1 reciprocal2
  let ret : V := ofRegs E result1 result2
  ret

/-- `operator/` (detail/short_vec_neon_float_8.hpp:158-181; neon_prec, neon_prec_lp64) -/
def opDiv_neon_prec (E : FEnv) (self : V) (other : V) : V :=
  let reciprocal1 : F32x4 := vrecpeq_f32 E other.val0
  let reciprocal2 : F32x4 := vrecpeq_f32 E other.val1
  let reciprocal1 : F32x4 := vmulq_f32 E (vrecpsq_f32 E other.val0 reciprocal1) reciprocal1
  let reciprocal2 : F32x4 := vmulq_f32 E (vrecpsq_f32 E other.val1 reciprocal2) reciprocal2
  let reciprocal1 : F32x4 := vmulq_f32 E (vrecpsq_f32 E other.val0 reciprocal1) reciprocal1
  let reciprocal2 : F32x4 := vmulq_f32 E (vrecpsq_f32 E other.val1 reciprocal2) reciprocal2
  let result1 : F32x4 := vmulq_f32 E self.val0 reciprocal1
  let result2 : F32x4 := vmulq_f32 E self.val1 reciprocal2
  let ret : V := ofRegs E result1 result2
  ret

/-- `load_aligned` (detail/short_vec_neon_float_8.hpp:229-234) -/
def load_aligned (E : FEnv) (m : Mem 32) (self : V) (data : Int) : Option V := do
  assertAligned 4 data 32
  let v1 ← load E m self data
  some ⟨v1.val0, v1.val1⟩

/-- `store_aligned` (detail/short_vec_neon_float_8.hpp:243-248) -/
def store_aligned (E : FEnv) (self : V) (data : Int) : Option (Writes 32) := do
  assertAligned 4 data 32
  let w1 ← store E self data
  some w1

/-- `store_nt` (detail/short_vec_neon_float_8.hpp:250-274; neon, neon_prec) -/
def store_nt_neon (E : FEnv) (self : V) (data : Int) : Option (Writes 32) := do
  let w1 ← store E self data
  some w1

/-- `store_nt` (detail/short_vec_neon_float_8.hpp:250-274; neon_lp64, neon_prec_lp64) -/
def store_nt_neon_lp64 (E : FEnv) (self : V) (data : Int) : Option (Writes 32) := none

/-- `gather` (detail/short_vec_neon_float_8.hpp:277-290) -/
def gather (E : FEnv) (m : Mem 32) (mo : Mem 32) (self : V) (ptr : Int) (offsets : Int) : Option V := do
  let data : Mem 32 := localArr 32 8
  let t1 ← mo (offsets + 0)
  let t2 ← m (ptr + t1.toInt)
  let data ← wr data 0 t2
  let t3 ← mo (offsets + 1)
  let t4 ← m (ptr + t3.toInt)
  let data ← wr data 1 t4
  let t5 ← mo (offsets + 2)
  let t6 ← m (ptr + t5.toInt)
  let data ← wr data 2 t6
  let t7 ← mo (offsets + 3)
  let t8 ← m (ptr + t7.toInt)
  let data ← wr data 3 t8
  let t9 ← mo (offsets + 4)
  let t10 ← m (ptr + t9.toInt)
  let data ← wr data 4 t10
  let t11 ← mo (offsets + 5)
  let t12 ← m (ptr + t11.toInt)
  let data ← wr data 5 t12
  let t13 ← mo (offsets + 6)
  let t14 ← m (ptr + t13.toInt)
  let data ← wr data 6 t14
  let t15 ← mo (offsets + 7)
  let t16 ← m (ptr + t15.toInt)
  let data ← wr data 7 t16
  let v17 ← load E data self 0
  some ⟨v17.val0, v17.val1⟩

/-- `scatter` (detail/short_vec_neon_float_8.hpp:293-306) -/
def scatter (E : FEnv) (mo : Mem 32) (self : V) (ptr : Int) (offsets : Int) : Option (Writes 32) := do
  let t1 ← mo (offsets + 0)
  let t2 ← mo (offsets + 1)
  let t3 ← mo (offsets + 2)
  let t4 ← mo (offsets + 3)
  let t5 ← mo (offsets + 4)
  let t6 ← mo (offsets + 5)
  let t7 ← mo (offsets + 6)
  let t8 ← mo (offsets + 7)
  some ([(ptr + t1.toInt, self.val0.x0)] ++ [(ptr + t2.toInt, self.val0.x1)] ++ [(ptr + t3.toInt, self.val0.x2)] ++ [(ptr +
      t4.toInt, self.val0.x3)] ++ [(ptr + t5.toInt, self.val1.x0)] ++ [(ptr + t6.toInt, self.val1.x1)] ++ [(ptr + t7.toInt,
      self.val1.x2)] ++ [(ptr + t8.toInt, self.val1.x3)])

/-- `operator<<`, free function (detail/short_vec_neon_float_8.hpp:312-316) -/
def opStore (E : FEnv) (data : Int) (vec : V) : Option (Writes 32) := do
  let w1 ← store E vec data
  some w1

/-- `sqrt`, free function (detail/short_vec_neon_float_8.hpp:318-322; neon, neon_lp64) -/
def sqrtFn_neon (E : FEnv) (vec : V) : V := sqrt_neon E vec

/-- `sqrt`, free function (detail/short_vec_neon_float_8.hpp:318-322; neon_prec, neon_prec_lp64) -/
def sqrtFn_neon_prec (E : FEnv) (vec : V) : V := sqrt_neon_prec E vec

/-- `operator<<`, free function (detail/short_vec_neon_float_8.hpp:324-337) -/
def print (E : FEnv) (vec : V) : List (Out 32) :=
  [.s "[", .v vec.val0.x0, .s ", ", .v vec.val0.x1, .s ", ", .v vec.val0.x2, .s ", ", .v vec.val0.x3, .s ", ", .v vec.val1.x0,
      .s ", ", .v vec.val1.x1, .s ", ", .v vec.val1.x2, .s ", ", .v vec.val1.x3, .s "]"]

end LFA.SV.NeonFloat8

namespace LFA.SV.NeonFloat16

/-- members of `short_vec<float, 16>` (detail/short_vec_neon_float_16.hpp:38) -/
structure V where
  val0 : F32x4
  val1 : F32x4
  val2 : F32x4
  val3 : F32x4

/-- lanes, from low to high -/
def V.lanes (v : V) : List (BitVec 32) := SV.lanes v.val0 ++ (SV.lanes v.val1 ++ (SV.lanes v.val2 ++ (SV.lanes v.val3)))

/-- constructor (detail/short_vec_neon_float_16.hpp:49-55) -/
def bcast (E : FEnv) (data : BitVec 32) : V :=
  ⟨vdupq_n_f32 data, vdupq_n_f32 data, vdupq_n_f32 data, vdupq_n_f32 data⟩

/-- constructor (detail/short_vec_neon_float_16.hpp:63-70) -/
def ofRegs (E : FEnv) (val1 : F32x4) (val2 : F32x4) (val3 : F32x4) (val4 : F32x4) : V := ⟨val1, val2, val3, val4⟩

/-- `load` (detail/short_vec_neon_float_16.hpp:271-278) -/
def load (E : FEnv) (m : Mem 32) (self : V) (data : Int) : Option V := do
  let t1 ← vld1q_f32 m (data + 0)
  let val0 : F32x4 := t1
  let t2 ← vld1q_f32 m (data + 4)
  let val1 : F32x4 := t2
  let t3 ← vld1q_f32 m (data + 8)
  let val2 : F32x4 := t3
  let t4 ← vld1q_f32 m (data + 12)
  let val3 : F32x4 := t4
  some ⟨val0, val1, val2, val3⟩

/-- `store` (detail/short_vec_neon_float_16.hpp:287-294) -/
def store (E : FEnv) (self : V) (data : Int) : Option (Writes 32) := do
  let w1 ← vst1q_f32 data self.val0
  let w2 ← vst1q_f32 (data + 4) self.val1
  let w3 ← vst1q_f32 (data + 8) self.val2
  let w4 ← vst1q_f32 (data + 12) self.val3
  some (w1 ++ w2 ++ w3 ++ w4)

/-- `sqrt` (detail/short_vec_neon_float_16.hpp:217-269; neon, neon_lp64) -/
def sqrt_neon (E : FEnv) (self : V) : V :=
  let x1 : F32x4 := vrsqrteq_f32 E self.val0
  let x2 : F32x4 := vrsqrteq_f32 E self.val1
  let x3 : F32x4 := vrsqrteq_f32 E self.val2
  let x4 : F32x4 := vrsqrteq_f32 E self.val3
  let vec_p_inf : U32x4 := vdupq_n_u32 (2139095040 : BitVec 32)
  let div_by_zero1 : U32x4 := vceqq_u32 vec_p_inf (vreinterpretq_u32_f32 x1)
  let div_by_zero2 : U32x4 := vceqq_u32 vec_p_inf (vreinterpretq_u32_f32 x2)
  let div_by_zero3 : U32x4 := vceqq_u32 vec_p_inf (vreinterpretq_u32_f32 x3)
  let div_by_zero4 : U32x4 := vceqq_u32 vec_p_inf (vreinterpretq_u32_f32 x4)
  let x1 : F32x4 := vreinterpretq_f32_u32 (vandq_u32 (vmvnq_u32 div_by_zero1) (vreinterpretq_u32_f32 x1))
  let x2 : F32x4 := vreinterpretq_f32_u32 (vandq_u32 (vmvnq_u32 div_by_zero2) (vreinterpretq_u32_f32 x2))
  let x3 : F32x4 := vreinterpretq_f32_u32 (vandq_u32 (vmvnq_u32 div_by_zero3) (vreinterpretq_u32_f32 x3))
  let x4 : F32x4 := vreinterpretq_f32_u32 (vandq_u32 (vmvnq_u32 div_by_zero4) (vreinterpretq_u32_f32 x4))
  let x1 : F32x4 := vmulq_f32 E (vrsqrtsq_f32 E (vmulq_f32 E x1 x1) self.val0) x1
  let x2 : F32x4 := vmulq_f32 E (vrsqrtsq_f32 E (vmulq_f32 E x2 x2) self.val1) x2
  let x3 : F32x4 := vmulq_f32 E (vrsqrtsq_f32 E (vmulq_f32 E x3 x3) self.val2) x3
  let x4 : F32x4 := vmulq_f32 E (vrsqrtsq_f32 E (vmulq_f32 E x4 x4) self.val3) x4
  let result1 : F32x4 := vmulq_f32 E self.val0 x1
  let result2 : F32x4 := vmulq_f32 E self.val1 x2
  let result3 : F32x4 := vmulq_f32 E self.val2 x3
  let result4 : F32x4 := vmulq_f32 E self.val3 x4
  let ret : V := ofRegs E result1 result2 result3 result4
  ret

/-- `sqrt` (detail/short_vec_neon_float_16.hpp:217-269; neon_prec, neon_prec_lp64) -/
def sqrt_neon_prec (E : FEnv) (self : V) : V :=
  let x1 : F32x4 := vrsqrteq_f32 E self.val0
  let x2 : F32x4 := vrsqrteq_f32 E self.val1
  let x3 : F32x4 := vrsqrteq_f32 E self.val2
  let x4 : F32x4 := vrsqrteq_f32 E self.val3
  let vec_p_inf : U32x4 := vdupq_n_u32 (2139095040 : BitVec 32)
  let div_by_zero1 : U32x4 := vceqq_u32 vec_p_inf (vreinterpretq_u32_f32 x1)
  let div_by_zero2 : U32x4 := vceqq_u32 vec_p_inf (vreinterpretq_u32_f32 x2)
  let div_by_zero3 : U32x4 := vceqq_u32 vec_p_inf (vreinterpretq_u32_f32 x3)
  let div_by_zero4 : U32x4 := vceqq_u32 vec_p_inf (vreinterpretq_u32_f32 x4)
  let x1 : F32x4 := vreinterpretq_f32_u32 (vandq_u32 (vmvnq_u32 div_by_zero1) (vreinterpretq_u32_f32 x1))
  let x2 : F32x4 := vreinterpretq_f32_u32 (vandq_u32 (vmvnq_u32 div_by_zero2) (vreinterpretq_u32_f32 x2))
  let x3 : F32x4 := vreinterpretq_f32_u32 (vandq_u32 (vmvnq_u32 div_by_zero3) (vreinterpretq_u32_f32 x3))
  let x4 : F32x4 := vreinterpretq_f32_u32 (vandq_u32 (vmvnq_u32 div_by_zero4) (vreinterpretq_u32_f32 x4))
  let x1 : F32x4 := vmulq_f32 E (vrsqrtsq_f32 E (vmulq_f32 E x1 x1) self.val0) x1
  let x2 : F32x4 := vmulq_f32 E (vrsqrtsq_f32 E (vmulq_f32 E x2 x2) self.val1) x2
  let x3 : F32x4 := vmulq_f32 E (vrsqrtsq_f32 E (vmulq_f32 E x3 x3) self.val2) x3
  let x4 : F32x4 := vmulq_f32 E (vrsqrtsq_f32 E (vmulq_f32 E x4 x4) self.val3) x4
  let x1 : F32x4 := vmulq_f32 E (vrsqrtsq_f32 E (vmulq_f32 E x1 x1) self.val0) x1
  let x2 : F32x4 := vmulq_f32 E (vrsqrtsq_f32 E (vmulq_f32 E x2 x2) self.val1) x2
  let x3 : F32x4 := vmulq_f32 E (vrsqrtsq_f32 E (vmulq_f32 E x3 x3) self.val2) x3
  let x4 : F32x4 := vmulq_f32 E (vrsqrtsq_f32 E (vmulq_f32 E x4 x4) self.val3) x4
  let result1 : F32x4 := vmulq_f32 E self.val0 x1
  let result2 : F32x4 := vmulq_f32 E self.val1 x2
  let result3 : F32x4 := vmulq_f32 E self.val2 x3
  let result4 : F32x4 := vmulq_f32 E self.val3 x4
  let ret : V := ofRegs E result1 result2 result3 result4
  ret

/-- constructor (detail/short_vec_neon_float_16.hpp:57-61) -/
def ofPtr (E : FEnv) (m : Mem 32) (data : Int) : Option V := do
  let v1 ← load E m ⟨(uninit : F32x4), (uninit : F32x4), (uninit : F32x4), (uninit : F32x4)⟩ data
  some ⟨v1.val0, v1.val1, v1.val2, v1.val3⟩

/-- constructor (detail/short_vec_neon_float_16.hpp:73-78) -/
def ofList (E : FEnv) (m : Mem 32) (il : Int) : Option V := do
  let v1 ← load E m ⟨(uninit : F32x4), (uninit : F32x4), (uninit : F32x4), (uninit : F32x4)⟩ il
  some ⟨v1.val0, v1.val1, v1.val2, v1.val3⟩

/-- `operator-=` (detail/short_vec_neon_float_16.hpp:81-88) -/
def opSubAssign (E : FEnv) (self : V) (other : V) : V :=
  let val0 : F32x4 := vsubq_f32 E self.val0 other.val0
  let val1 : F32x4 := vsubq_f32 E self.val1 other.val1
  let val2 : F32x4 := vsubq_f32 E self.val2 other.val2
  let val3 : F32x4 := vsubq_f32 E self.val3 other.val3
  ⟨val0, val1, val2, val3⟩

/-- `operator-` (detail/short_vec_neon_float_16.hpp:90-97) -/
def opSub (E : FEnv) (self : V) (other : V) : V :=
  ofRegs E (vsubq_f32 E self.val0 other.val0) (vsubq_f32 E self.val1 other.val1) (vsubq_f32 E self.val2 other.val2) (vsubq_f32
      E self.val3 other.val3)

/-- `operator+=` (detail/short_vec_neon_float_16.hpp:99-106) -/
def opAddAssign (E : FEnv) (self : V) (other : V) : V :=
  let val0 : F32x4 := vaddq_f32 E self.val0 other.val0
  let val1 : F32x4 := vaddq_f32 E self.val1 other.val1
  let val2 : F32x4 := vaddq_f32 E self.val2 other.val2
  let val3 : F32x4 := vaddq_f32 E self.val3 other.val3
  ⟨val0, val1, val2, val3⟩

/-- `operator+` (detail/short_vec_neon_float_16.hpp:108-116) -/
def opAdd (E : FEnv) (self : V) (other : V) : V :=
  let ret : V := ofRegs E (vaddq_f32 E self.val0 other.val0) (vaddq_f32 E self.val1 other.val1) (vaddq_f32 E self.val2
      other.val2) (vaddq_f32 E self.val3 other.val3)
  ret

/-- `operator*=` (detail/short_vec_neon_float_16.hpp:118-125) -/
def opMulAssign (E : FEnv) (self : V) (other : V) : V :=
  let val0 : F32x4 := vmulq_f32 E self.val0 other.val0
  let val1 : F32x4 := vmulq_f32 E self.val1 other.val1
  let val2 : F32x4 := vmulq_f32 E self.val2 other.val2
  let val3 : F32x4 := vmulq_f32 E self.val3 other.val3
  ⟨val0, val1, val2, val3⟩

/-- `operator*` (detail/short_vec_neon_float_16.hpp:127-134) -/
def opMul (E : FEnv) (self : V) (other : V) : V :=
  let ret : V := ofRegs E (vmulq_f32 E self.val0 other.val0) (vmulq_f32 E self.val1 other.val1) (vmulq_f32 E self.val2
      other.val2) (vmulq_f32 E self.val3 other.val3)
  ret

/-- `operator/=` (detail/short_vec_neon_float_16.hpp:142-170; neon, neon_lp64) -/
def opDivAssign_neon (E : FEnv) (self : V) (other : V) : V :=
  let reciprocal1 : F32x4 := vrecpeq_f32 E other.val0
  let reciprocal2 : F32x4 := vrecpeq_f32 E other.val1
  let reciprocal3 : F32x4 := vrecpeq_f32 E other.val2
  let reciprocal4 : F32x4 := vrecpeq_f32 E other.val3
  let reciprocal1 : F32x4 := vmulq_f32 E (vrecpsq_f32 E other.val0 reciprocal1) reciprocal1
  let reciprocal2 : F32x4 := vmulq_f32 E (vrecpsq_f32 E other.val1 reciprocal2) reciprocal2
  let reciprocal3 : F32x4 := vmulq_f32 E (vrecpsq_f32 E other.val2 reciprocal3) reciprocal3
  let reciprocal4 : F32x4 := vmulq_f32 E (vrecpsq_f32 E other.val3 reciprocal4) reciprocal4
  let val0 : F32x4 := vmulq_f32 E self.val0 reciprocal1
  let val1 : F32x4 := vmulq_f32 E self.val1 reciprocal2
  let val2 : F32x4 := vmulq_f32 E self.val2 reciprocal3
  let val3 : F32x4 := vmulq_f32 E self.val3 reciprocal4
  ⟨val0, val1, val2, val3⟩

/-- `operator/=` (detail/short_vec_neon_float_16.hpp:142-170; neon_prec, neon_prec_lp64) -/
def opDivAssign_neon_prec (E : FEnv) (self : V) (other : V) : V :=
  let reciprocal1 : F32x4 := vrecpeq_f32 E other.val0
  let reciprocal2 : F32x4 := vrecpeq_f32 E other.val1
  let reciprocal3 : F32x4 := vrecpeq_f32 E other.val2
  let reciprocal4 : F32x4 := vrecpeq_f32 E other.val3
  let reciprocal1 : F32x4 := vmulq_f32 E (vrecpsq_f32 E other.val0 reciprocal1) reciprocal1
  let reciprocal2 : F32x4 := vmulq_f32 E (vrecpsq_f32 E other.val1 reciprocal2) reciprocal2
  let reciprocal3 : F32x4 := vmulq_f32 E (vrecpsq_f32 E other.val2 reciprocal3) reciprocal3
  let reciprocal4 : F32x4 := vmulq_f32 E (vrecpsq_f32 E other.val3 reciprocal4) reciprocal4
  let reciprocal1 : F32x4 := vmulq_f32 E (vrecpsq_f32 E other.val0 reciprocal1) reciprocal1
  let reciprocal2 : F32x4 := vmulq_f32 E (vrecpsq_f32 E other.val1 reciprocal2) reciprocal2
  let reciprocal3 : F32x4 := vmulq_f32 E (vrecpsq_f32 E other.val2 reciprocal3) reciprocal3
  let reciprocal4 : F32x4 := vmulq_f32 E (vrecpsq_f32 E other.val3 reciprocal4) reciprocal4
  let val0 : F32x4 := vmulq_f32 E self.val0 reciprocal1
  let val1 : F32x4 := vmulq_f32 E self.val1 reciprocal2
  let val2 : F32x4 := vmulq_f32 E self.val2 reciprocal3
  let val3 : F32x4 := vmulq_f32 E self.val3 reciprocal4
  ⟨val0, val1, val2, val3⟩

/-- `operator/` (detail/short_vec_neon_float_16.hpp:178-214; neon, neon_lp64) -/
def opDiv_neon (E : FEnv) (self : V) (other : V) : V :=
  let reciprocal1 : F32x4 := vrecpeq_f32 E other.val0
  let reciprocal2 : F32x4 := vrecpeq_f32 E other.val1
  let reciprocal3 : F32x4 := vrecpeq_f32 E other.val2
  let reciprocal4 : F32x4 := vrecpeq_f32 E other.val3
  let reciprocal1 : F32x4 := vmulq_f32 E (vrecpsq_f32 E other.val0 reciprocal1) reciprocal1
  let reciprocal2 : F32x4 := vmulq_f32 E (vrecpsq_f32 E other.val1 reciprocal2) reciprocal2
  let reciprocal3 : F32x4 := vmulq_f32 E (vrecpsq_f32 E other.val2 reciprocal3) reciprocal3
  let reciprocal4 : F32x4 := vmulq_f32 E (vrecpsq_f32 E other.val3 reciprocal4) reciprocal4
  let result1 : F32x4 := vmulq_f32 E self.val0 reciprocal1
  let result2 : F32x4 := vmulq_f32 E self.val1 reciprocal2
  let result3 : F32x4 := vmulq_f32 E self.val2 reciprocal3
  let result4 : F32x4 := vmulq_f32 E self.val3 reciprocal4
  let ret : V := ofRegs E result1 result2 result3 result4
  ret

/-- `operator/` (detail/short_vec_neon_float_16.hpp:178-214; neon_prec, neon_prec_lp64) -/
def opDiv_neon_prec (E : FEnv) (self : V) (other : V) : V :=
  let reciprocal1 : F32x4 := vrecpeq_f32 E other.val0
  let reciprocal2 : F32x4 := vrecpeq_f32 E other.val1
  let reciprocal3 : F32x4 := vrecpeq_f32 E other.val2
  let reciprocal4 : F32x4 := vrecpeq_f32 E other.val3
  let reciprocal1 : F32x4 := vmulq_f32 E (vrecpsq_f32 E other.val0 reciprocal1) reciprocal1
  let reciprocal2 : F32x4 := vmulq_f32 E (vrecpsq_f32 E other.val1 reciprocal2) reciprocal2
  let reciprocal3 : F32x4 := vmulq_f32 E (vrecpsq_f32 E other.val2 reciprocal3) reciprocal3
  let reciprocal4 : F32x4 := vmulq_f32 E (vrecpsq_f32 E other.val3 reciprocal4) reciprocal4
  let reciprocal1 : F32x4 := vmulq_f32 E (vrecpsq_f32 E other.val0 reciprocal1) reciprocal1
  let reciprocal2 : F32x4 := vmulq_f32 E (vrecpsq_f32 E other.val1 reciprocal2) reciprocal2
  let reciprocal3 : F32x4 := vmulq_f32 E (vrecpsq_f32 E other.val2 reciprocal3) reciprocal3
  let reciprocal4 : F32x4 := vmulq_f32 E (vrecpsq_f32 E other.val3 reciprocal4) reciprocal4
  let result1 : F32x4 := vmulq_f32 E self.val0 reciprocal1
  let result2 : F32x4 := vmulq_f32 E self.val1 reciprocal2
  let result3 : F32x4 := vmulq_f32 E self.val2 reciprocal3
  let result4 : F32x4 := vmulq_f32 E self.val3 reciprocal4
  let ret : V := ofRegs E result1 result2 result3 result4
  ret

/-- `load_aligned` (detail/short_vec_neon_float_16.hpp:280-285) -/
def load_aligned (E : FEnv) (m : Mem 32) (self : V) (data : Int) : Option V := do
  assertAligned 4 data 64
  let v1 ← load E m self data
  some ⟨v1.val0, v1.val1, v1.val2, v1.val3⟩

/-- `store_aligned` (detail/short_vec_neon_float_16.hpp:296-301) -/
def store_aligned (E : FEnv) (self : V) (data : Int) : Option (Writes 32) := do
  assertAligned 4 data 64
  let w1 ← store E self data
  some w1

/-- `store_nt` (detail/short_vec_neon_float_16.hpp:303-337; neon, neon_prec) -/
def store_nt_neon (E : FEnv) (self : V) (data : Int) : Option (Writes 32) := do
  let w1 ← store E self data
  some w1

/-- `store_nt` (detail/short_vec_neon_float_16.hpp:303-337; neon_lp64, neon_prec_lp64) -/
def store_nt_neon_lp64 (E : FEnv) (self : V) (data : Int) : Option (Writes 32) := none

/-- `gather` (detail/short_vec_neon_float_16.hpp:340-361) -/
def gather (E : FEnv) (m : Mem 32) (mo : Mem 32) (self : V) (ptr : Int) (offsets : Int) : Option V := do
  let data : Mem 32 := localArr 32 16
  let t1 ← mo (offsets + 0)
  let t2 ← m (ptr + t1.toInt)
  let data ← wr data 0 t2
  let t3 ← mo (offsets + 1)
  let t4 ← m (ptr + t3.toInt)
  let data ← wr data 1 t4
  let t5 ← mo (offsets + 2)
  let t6 ← m (ptr + t5.toInt)
  let data ← wr data 2 t6
  let t7 ← mo (offsets + 3)
  let t8 ← m (ptr + t7.toInt)
  let data ← wr data 3 t8
  let t9 ← mo (offsets + 4)
  let t10 ← m (ptr + t9.toInt)
  let data ← wr data 4 t10
  let t11 ← mo (offsets + 5)
  let t12 ← m (ptr + t11.toInt)
  let data ← wr data 5 t12
  let t13 ← mo (offsets + 6)
  let t14 ← m (ptr + t13.toInt)
  let data ← wr data 6 t14
  let t15 ← mo (offsets + 7)
  let t16 ← m (ptr + t15.toInt)
  let data ← wr data 7 t16
  let t17 ← mo (offsets + 8)
  let t18 ← m (ptr + t17.toInt)
  let data ← wr data 8 t18
  let t19 ← mo (offsets + 9)
  let t20 ← m (ptr + t19.toInt)
  let data ← wr data 9 t20
  let t21 ← mo (offsets + 10)
  let t22 ← m (ptr + t21.toInt)
  let data ← wr data 10 t22
  let t23 ← mo (offsets + 11)
  let t24 ← m (ptr + t23.toInt)
  let data ← wr data 11 t24
  let t25 ← mo (offsets + 12)
  let t26 ← m (ptr + t25.toInt)
  let data ← wr data 12 t26
  let t27 ← mo (offsets + 13)
  let t28 ← m (ptr + t27.toInt)
  let data ← wr data 13 t28
  let t29 ← mo (offsets + 14)
  let t30 ← m (ptr + t29.toInt)
  let data ← wr data 14 t30
  let t31 ← mo (offsets + 15)
  let t32 ← m (ptr + t31.toInt)
  let data ← wr data 15 t32
  let v33 ← load E data self 0
  some ⟨v33.val0, v33.val1, v33.val2, v33.val3⟩

/-- `scatter` (detail/short_vec_neon_float_16.hpp:364-387) -/
def scatter (E : FEnv) (mo : Mem 32) (self : V) (ptr : Int) (offsets : Int) : Option (Writes 32) := do
  let t1 ← mo (offsets + 0)
  let t2 ← mo (offsets + 1)
  let t3 ← mo (offsets + 2)
  let t4 ← mo (offsets + 3)
  let t5 ← mo (offsets + 4)
  let t6 ← mo (offsets + 5)
  let t7 ← mo (offsets + 6)
  let t8 ← mo (offsets + 7)
  let t9 ← mo (offsets + 8)
  let t10 ← mo (offsets + 9)
  let t11 ← mo (offsets + 10)
  let t12 ← mo (offsets + 11)
  let t13 ← mo (offsets + 12)
  let t14 ← mo (offsets + 13)
  let t15 ← mo (offsets + 14)
  let t16 ← mo (offsets + 15)
  some ([(ptr + t1.toInt, self.val0.x0)] ++ [(ptr + t2.toInt, self.val0.x1)] ++ [(ptr + t3.toInt, self.val0.x2)] ++ [(ptr +
      t4.toInt, self.val0.x3)] ++ [(ptr + t5.toInt, self.val1.x0)] ++ [(ptr + t6.toInt, self.val1.x1)] ++ [(ptr + t7.toInt,
      self.val1.x2)] ++ [(ptr + t8.toInt, self.val1.x3)] ++ [(ptr + t9.toInt, self.val2.x0)] ++ [(ptr + t10.toInt,
      self.val2.x1)] ++ [(ptr + t11.toInt, self.val2.x2)] ++ [(ptr + t12.toInt, self.val2.x3)] ++ [(ptr + t13.toInt,
      self.val3.x0)] ++ [(ptr + t14.toInt, self.val3.x1)] ++ [(ptr + t15.toInt, self.val3.x2)] ++ [(ptr + t16.toInt,
      self.val3.x3)])

/-- `operator<<`, free function (detail/short_vec_neon_float_16.hpp:393-397) -/
def opStore (E : FEnv) (data : Int) (vec : V) : Option (Writes 32) := do
  let w1 ← store E vec data
  some w1

/-- `sqrt`, free function (detail/short_vec_neon_float_16.hpp:399-403; neon, neon_lp64) -/
def sqrtFn_neon (E : FEnv) (vec : V) : V := sqrt_neon E vec

/-- `sqrt`, free function (detail/short_vec_neon_float_16.hpp:399-403; neon_prec, neon_prec_lp64) -/
def sqrtFn_neon_prec (E : FEnv) (vec : V) : V := sqrt_neon_prec E vec

/-- `operator<<`, free function (detail/short_vec_neon_float_16.hpp:405-420) -/
def print (E : FEnv) (vec : V) : List (Out 32) :=
  [.s "[", .v vec.val0.x0, .s ", ", .v vec.val0.x1, .s ", ", .v vec.val0.x2, .s ", ", .v vec.val0.x3, .s ", ", .v vec.val1.x0,
      .s ", ", .v vec.val1.x1, .s ", ", .v vec.val1.x2, .s ", ", .v vec.val1.x3, .s ", ", .v vec.val2.x0, .s ", ", .v
      vec.val2.x1, .s ", ", .v vec.val2.x2, .s ", ", .v vec.val2.x3, .s ", ", .v vec.val3.x0, .s ", ", .v vec.val3.x1, .s ", ",
      .v vec.val3.x2, .s ", ", .v vec.val3.x3, .s "]"]

end LFA.SV.NeonFloat16

namespace LFA.SV.NeonFloat32

/-- members of `short_vec<float, 32>` (detail/short_vec_neon_float_32.hpp:39) -/
structure V where
  val0 : F32x4
  val1 : F32x4
  val2 : F32x4
  val3 : F32x4
  val4 : F32x4
  val5 : F32x4
  val6 : F32x4
  val7 : F32x4

/-- lanes, from low to high -/
def V.lanes (v : V) : List (BitVec 32) := SV.lanes v.val0 ++ (SV.lanes v.val1 ++ (SV.lanes v.val2 ++ (SV.lanes v.val3 ++
    (SV.lanes v.val4 ++ (SV.lanes v.val5 ++ (SV.lanes v.val6 ++ (SV.lanes v.val7)))))))

/-- constructor (detail/short_vec_neon_float_32.hpp:50-60) -/
def bcast (E : FEnv) (data : BitVec 32) : V :=
  ⟨vdupq_n_f32 data, vdupq_n_f32 data, vdupq_n_f32 data, vdupq_n_f32 data, vdupq_n_f32 data, vdupq_n_f32 data, vdupq_n_f32
      data, vdupq_n_f32 data⟩

/-- constructor (detail/short_vec_neon_float_32.hpp:68-86) -/
def ofRegs (E : FEnv) (val1 : F32x4) (val2 : F32x4) (val3 : F32x4) (val4 : F32x4) (val5 : F32x4) (val6 : F32x4) (val7 : F32x4)
    (val8 : F32x4) : V :=
  ⟨val1, val2, val3, val4, val5, val6, val7, val8⟩

/-- `load` (detail/short_vec_neon_float_32.hpp:359-370) -/
def load (E : FEnv) (m : Mem 32) (self : V) (data : Int) : Option V := do
  let t1 ← vld1q_f32 m (data + 0)
  let val0 : F32x4 := t1
  let t2 ← vld1q_f32 m (data + 4)
  let val1 : F32x4 := t2
  let t3 ← vld1q_f32 m (data + 8)
  let val2 : F32x4 := t3
  let t4 ← vld1q_f32 m (data + 12)
  let val3 : F32x4 := t4
  let t5 ← vld1q_f32 m (data + 16)
  let val4 : F32x4 := t5
  let t6 ← vld1q_f32 m (data + 20)
  let val5 : F32x4 := t6
  let t7 ← vld1q_f32 m (data + 24)
  let val6 : F32x4 := t7
  let t8 ← vld1q_f32 m (data + 28)
  let val7 : F32x4 := t8
  some ⟨val0, val1, val2, val3, val4, val5, val6, val7⟩

/-- `store` (detail/short_vec_neon_float_32.hpp:379-390) -/
def store (E : FEnv) (self : V) (data : Int) : Option (Writes 32) := do
  let w1 ← vst1q_f32 (data + 0) self.val0
  let w2 ← vst1q_f32 (data + 4) self.val1
  let w3 ← vst1q_f32 (data + 8) self.val2
  let w4 ← vst1q_f32 (data + 12) self.val3
  let w5 ← vst1q_f32 (data + 16) self.val4
  let w6 ← vst1q_f32 (data + 20) self.val5
  let w7 ← vst1q_f32 (data + 24) self.val6
  let w8 ← vst1q_f32 (data + 28) self.val7
  some (w1 ++ w2 ++ w3 ++ w4 ++ w5 ++ w6 ++ w7 ++ w8)

/-- `sqrt` (detail/short_vec_neon_float_32.hpp:280-357; neon, neon_lp64) -/
def sqrt_neon (E : FEnv) (self : V) : V :=
  let x1 : F32x4 := vrsqrteq_f32 E self.val0
  let x2 : F32x4 := vrsqrteq_f32 E self.val1
  let x3 : F32x4 := vrsqrteq_f32 E self.val2
  let x4 : F32x4 := vrsqrteq_f32 E self.val3
  let x5 : F32x4 := vrsqrteq_f32 E self.val4
  let x6 : F32x4 := vrsqrteq_f32 E self.val5
  let x7 : F32x4 := vrsqrteq_f32 E self.val6
  let x8 : F32x4 := vrsqrteq_f32 E self.val7
  let vec_p_inf : U32x4 := vdupq_n_u32 (2139095040 : BitVec 32)
  let div_by_zero1 : U32x4 := vceqq_u32 vec_p_inf (vreinterpretq_u32_f32 x1)
  let div_by_zero2 : U32x4 := vceqq_u32 vec_p_inf (vreinterpretq_u32_f32 x2)
  let div_by_zero3 : U32x4 := vceqq_u32 vec_p_inf (vreinterpretq_u32_f32 x3)
  let div_by_zero4 : U32x4 := vceqq_u32 vec_p_inf (vreinterpretq_u32_f32 x4)
  let div_by_zero5 : U32x4 := vceqq_u32 vec_p_inf (vreinterpretq_u32_f32 x5)
  let div_by_zero6 : U32x4 := vceqq_u32 vec_p_inf (vreinterpretq_u32_f32 x6)
  let div_by_zero7 : U32x4 := vceqq_u32 vec_p_inf (vreinterpretq_u32_f32 x7)
  let div_by_zero8 : U32x4 := vceqq_u32 vec_p_inf (vreinterpretq_u32_f32 x8)
  let x1 : F32x4 := vreinterpretq_f32_u32 (vandq_u32 (vmvnq_u32 div_by_zero1) (vreinterpretq_u32_f32 x1))
  let x2 : F32x4 := vreinterpretq_f32_u32 (vandq_u32 (vmvnq_u32 div_by_zero2) (vreinterpretq_u32_f32 x2))
  let x3 : F32x4 := vreinterpretq_f32_u32 (vandq_u32 (vmvnq_u32 div_by_zero3) (vreinterpretq_u32_f32 x3))
  let x4 : F32x4 := vreinterpretq_f32_u32 (vandq_u32 (vmvnq_u32 div_by_zero4) (vreinterpretq_u32_f32 x4))
  let x5 : F32x4 := vreinterpretq_f32_u32 (vandq_u32 (vmvnq_u32 div_by_zero5) (vreinterpretq_u32_f32 x5))
  let x6 : F32x4 := vreinterpretq_f32_u32 (vandq_u32 (vmvnq_u32 div_by_zero6) (vreinterpretq_u32_f32 x6))
  let x7 : F32x4 := vreinterpretq_f32_u32 (vandq_u32 (vmvnq_u32 div_by_zero7) (vreinterpretq_u32_f32 x7))
  let x8 : F32x4 := vreinterpretq_f32_u32 (vandq_u32 (vmvnq_u32 div_by_zero8) (vreinterpretq_u32_f32 x8))
  let x1 : F32x4 := vmulq_f32 E (vrsqrtsq_f32 E (vmulq_f32 E x1 x1) self.val0) x1
  let x2 : F32x4 := vmulq_f32 E (vrsqrtsq_f32 E (vmulq_f32 E x2 x2) self.val1) x2
  let x3 : F32x4 := vmulq_f32 E (vrsqrtsq_f32 E (vmulq_f32 E x3 x3) self.val2) x3
  let x4 : F32x4 := vmulq_f32 E (vrsqrtsq_f32 E (vmulq_f32 E x4 x4) self.val3) x4
  let x5 : F32x4 := vmulq_f32 E (vrsqrtsq_f32 E (vmulq_f32 E x5 x5) self.val4) x5
  let x6 : F32x4 := vmulq_f32 E (vrsqrtsq_f32 E (vmulq_f32 E x6 x6) self.val5) x6
  let x7 : F32x4 := vmulq_f32 E (vrsqrtsq_f32 E (vmulq_f32 E x7 x7) self.val6) x7
  let x8 : F32x4 := vmulq_f32 E (vrsqrtsq_f32 E (vmulq_f32 E x8 x8) self.val7) x8
  let result1 : F32x4 := vmulq_f32 E self.val0 x1
  let result2 : F32x4 := vmulq_f32 E self.val1 x2
  let result3 : F32x4 := vmulq_f32 E self.val2 x3
  let result4 : F32x4 := vmulq_f32 E self.val3 x4
  let result5 : F32x4 := vmulq_f32 E self.val4 x5
  let result6 : F32x4 := vmulq_f32 E self.val5 x6
  let result7 : F32x4 := vmulq_f32 E self.val6 x7
  let result8 : F32x4 := vmulq_f32 E self.val7 x8
  let ret : V := ofRegs E result1 result2 result3 result4 result5 result6 result7 result8
  ret

/-- `sqrt` (detail/short_vec_neon_float_32.hpp:280-357; neon_prec, neon_prec_lp64) -/
def sqrt_neon_prec (E : FEnv) (self : V) : V :=
  let x1 : F32x4 := vrsqrteq_f32 E self.val0
  let x2 : F32x4 := vrsqrteq_f32 E self.val1
  let x3 : F32x4 := vrsqrteq_f32 E self.val2
  let x4 : F32x4 := vrsqrteq_f32 E self.val3
  let x5 : F32x4 := vrsqrteq_f32 E self.val4
  let x6 : F32x4 := vrsqrteq_f32 E self.val5
  let x7 : F32x4 := vrsqrteq_f32 E self.val6
  let x8 : F32x4 := vrsqrteq_f32 E self.val7
  let vec_p_inf : U32x4 := vdupq_n_u32 (2139095040 : BitVec 32)
  let div_by_zero1 : U32x4 := vceqq_u32 vec_p_inf (vreinterpretq_u32_f32 x1)
  let div_by_zero2 : U32x4 := vceqq_u32 vec_p_inf (vreinterpretq_u32_f32 x2)
  let div_by_zero3 : U32x4 := vceqq_u32 vec_p_inf (vreinterpretq_u32_f32 x3)
  let div_by_zero4 : U32x4 := vceqq_u32 vec_p_inf (vreinterpretq_u32_f32 x4)
  let div_by_zero5 : U32x4 := vceqq_u32 vec_p_inf (vreinterpretq_u32_f32 x5)
  let div_by_zero6 : U32x4 := vceqq_u32 vec_p_inf (vreinterpretq_u32_f32 x6)
  let div_by_zero7 : U32x4 := vceqq_u32 vec_p_inf (vreinterpretq_u32_f32 x7)
  let div_by_zero8 : U32x4 := vceqq_u32 vec_p_inf (vreinterpretq_u32_f32 x8)
  let x1 : F32x4 := vreinterpretq_f32_u32 (vandq_u32 (vmvnq_u32 div_by_zero1) (vreinterpretq_u32_f32 x1))
  let x2 : F32x4 := vreinterpretq_f32_u32 (vandq_u32 (vmvnq_u32 div_by_zero2) (vreinterpretq_u32_f32 x2))
  let x3 : F32x4 := vreinterpretq_f32_u32 (vandq_u32 (vmvnq_u32 div_by_zero3) (vreinterpretq_u32_f32 x3))
  let x4 : F32x4 := vreinterpretq_f32_u32 (vandq_u32 (vmvnq_u32 div_by_zero4) (vreinterpretq_u32_f32 x4))
  let x5 : F32x4 := vreinterpretq_f32_u32 (vandq_u32 (vmvnq_u32 div_by_zero5) (vreinterpretq_u32_f32 x5))
  let x6 : F32x4 := vreinterpretq_f32_u32 (vandq_u32 (vmvnq_u32 div_by_zero6) (vreinterpretq_u32_f32 x6))
  let x7 : F32x4 := vreinterpretq_f32_u32 (vandq_u32 (vmvnq_u32 div_by_zero7) (vreinterpretq_u32_f32 x7))
  let x8 : F32x4 := vreinterpretq_f32_u32 (vandq_u32 (vmvnq_u32 div_by_zero8) (vreinterpretq_u32_f32 x8))
  let x1 : F32x4 := vmulq_f32 E (vrsqrtsq_f32 E (vmulq_f32 E x1 x1) self.val0) x1
  let x2 : F32x4 := vmulq_f32 E (vrsqrtsq_f32 E (vmulq_f32 E x2 x2) self.val1) x2
  let x3 : F32x4 := vmulq_f32 E (vrsqrtsq_f32 E (vmulq_f32 E x3 x3) self.val2) x3
  let x4 : F32x4 := vmulq_f32 E (vrsqrtsq_f32 E (vmulq_f32 E x4 x4) self.val3) x4
  let x5 : F32x4 := vmulq_f32 E (vrsqrtsq_f32 E (vmulq_f32 E x5 x5) self.val4) x5
  let x6 : F32x4 := vmulq_f32 E (vrsqrtsq_f32 E (vmulq_f32 E x6 x6) self.val5) x6
  let x7 : F32x4 := vmulq_f32 E (vrsqrtsq_f32 E (vmulq_f32 E x7 x7) self.val6) x7
  let x8 : F32x4 := vmulq_f32 E (vrsqrtsq_f32 E (vmulq_f32 E x8 x8) self.val7) x8
  let x1 : F32x4 := vmulq_f32 E (vrsqrtsq_f32 E (vmulq_f32 E x1 x1) self.val0) x1
  let x2 : F32x4 := vmulq_f32 E (vrsqrtsq_f32 E (vmulq_f32 E x2 x2) self.val1) x2
  let x3 : F32x4 := vmulq_f32 E (vrsqrtsq_f32 E (vmulq_f32 E x3 x3) self.val2) x3
  let x4 : F32x4 := vmulq_f32 E (vrsqrtsq_f32 E (vmulq_f32 E x4 x4) self.val3) x4
  let x5 : F32x4 := vmulq_f32 E (vrsqrtsq_f32 E (vmulq_f32 E x5 x5) self.val4) x5
  let x6 : F32x4 := vmulq_f32 E (vrsqrtsq_f32 E (vmulq_f32 E x6 x6) self.val5) x6
  let x7 : F32x4 := vmulq_f32 E (vrsqrtsq_f32 E (vmulq_f32 E x7 x7) self.val6) x7
  let x8 : F32x4 := vmulq_f32 E (vrsqrtsq_f32 E (vmulq_f32 E x8 x8) self.val7) x8
  let result1 : F32x4 := vmulq_f32 E self.val0 x1
  let result2 : F32x4 := vmulq_f32 E self.val1 x2
  let result3 : F32x4 := vmulq_f32 E self.val2 x3
  let result4 : F32x4 := vmulq_f32 E self.val3 x4
  let result5 : F32x4 := vmulq_f32 E self.val4 x5
  let result6 : F32x4 := vmulq_f32 E self.val5 x6
  let result7 : F32x4 := vmulq_f32 E self.val6 x7
  let result8 : F32x4 := vmulq_f32 E self.val7 x8
  let ret : V := ofRegs E result1 result2 result3 result4 result5 result6 result7 result8
  ret

/-- constructor (detail/short_vec_neon_float_32.hpp:62-66) -/
def ofPtr (E : FEnv) (m : Mem 32) (data : Int) : Option V := do
  let v1 ← load E m ⟨(uninit : F32x4), (uninit : F32x4), (uninit : F32x4), (uninit : F32x4), (uninit : F32x4), (uninit :
      F32x4), (uninit : F32x4), (uninit : F32x4)⟩ data
  some ⟨v1.val0, v1.val1, v1.val2, v1.val3, v1.val4, v1.val5, v1.val6, v1.val7⟩

/-- constructor (detail/short_vec_neon_float_32.hpp:89-94) -/
def ofList (E : FEnv) (m : Mem 32) (il : Int) : Option V := do
  let v1 ← load E m ⟨(uninit : F32x4), (uninit : F32x4), (uninit : F32x4), (uninit : F32x4), (uninit : F32x4), (uninit :
      F32x4), (uninit : F32x4), (uninit : F32x4)⟩ il
  some ⟨v1.val0, v1.val1, v1.val2, v1.val3, v1.val4, v1.val5, v1.val6, v1.val7⟩

/-- `operator-=` (detail/short_vec_neon_float_32.hpp:97-108) -/
def opSubAssign (E : FEnv) (self : V) (other : V) : V :=
  let val0 : F32x4 := vsubq_f32 E self.val0 other.val0
  let val1 : F32x4 := vsubq_f32 E self.val1 other.val1
  let val2 : F32x4 := vsubq_f32 E self.val2 other.val2
  let val3 : F32x4 := vsubq_f32 E self.val3 other.val3
  let val4 : F32x4 := vsubq_f32 E self.val4 other.val4
  let val5 : F32x4 := vsubq_f32 E self.val5 other.val5
  let val6 : F32x4 := vsubq_f32 E self.val6 other.val6
  let val7 : F32x4 := vsubq_f32 E self.val7 other.val7
  ⟨val0, val1, val2, val3, val4, val5, val6, val7⟩

/-- `operator-` (detail/short_vec_neon_float_32.hpp:110-119) -/
def opSub (E : FEnv) (self : V) (other : V) : V :=
  ofRegs E (vsubq_f32 E self.val0 other.val0) (vsubq_f32 E self.val1 other.val1) (vsubq_f32 E self.val2 other.val2) (vsubq_f32
      E self.val3 other.val3) (vsubq_f32 E self.val4 other.val4) (vsubq_f32 E self.val5 other.val5) (vsubq_f32 E self.val6
      other.val6) (vsubq_f32 E self.val7 other.val7)

/-- `operator+=` (detail/short_vec_neon_float_32.hpp:121-132) -/
def opAddAssign (E : FEnv) (self : V) (other : V) : V :=
  let val0 : F32x4 := vaddq_f32 E self.val0 other.val0
  let val1 : F32x4 := vaddq_f32 E self.val1 other.val1
  let val2 : F32x4 := vaddq_f32 E self.val2 other.val2
  let val3 : F32x4 := vaddq_f32 E self.val3 other.val3
  let val4 : F32x4 := vaddq_f32 E self.val4 other.val4
  let val5 : F32x4 := vaddq_f32 E self.val5 other.val5
  let val6 : F32x4 := vaddq_f32 E self.val6 other.val6
  let val7 : F32x4 := vaddq_f32 E self.val7 other.val7
  ⟨val0, val1, val2, val3, val4, val5, val6, val7⟩

/-- `operator+` (detail/short_vec_neon_float_32.hpp:134-144) -/
def opAdd (E : FEnv) (self : V) (other : V) : V :=
  let ret : V := ofRegs E (vaddq_f32 E self.val0 other.val0) (vaddq_f32 E self.val1 other.val1) (vaddq_f32 E self.val2
      other.val2) (vaddq_f32 E self.val3 other.val3) (vaddq_f32 E self.val4 other.val4) (vaddq_f32 E self.val5 other.val5)
      (vaddq_f32 E self.val6 other.val6) (vaddq_f32 E self.val7 other.val7)
  ret

/-- `operator*=` (detail/short_vec_neon_float_32.hpp:146-157) -/
def opMulAssign (E : FEnv) (self : V) (other : V) : V :=
  let val0 : F32x4 := vmulq_f32 E self.val0 other.val0
  let val1 : F32x4 := vmulq_f32 E self.val1 other.val1
  let val2 : F32x4 := vmulq_f32 E self.val2 other.val2
  let val3 : F32x4 := vmulq_f32 E self.val3 other.val3
  let val4 : F32x4 := vmulq_f32 E self.val4 other.val4
  let val5 : F32x4 := vmulq_f32 E self.val5 other.val5
  let val6 : F32x4 := vmulq_f32 E self.val6 other.val6
  let val7 : F32x4 := vmulq_f32 E self.val7 other.val7
  ⟨val0, val1, val2, val3, val4, val5, val6, val7⟩

/-- `operator*` (detail/short_vec_neon_float_32.hpp:159-169) -/
def opMul (E : FEnv) (self : V) (other : V) : V :=
  let ret : V := ofRegs E (vmulq_f32 E self.val0 other.val0) (vmulq_f32 E self.val1 other.val1) (vmulq_f32 E self.val2
      other.val2) (vmulq_f32 E self.val3 other.val3) (vmulq_f32 E self.val4 other.val4) (vmulq_f32 E self.val5 other.val5)
      (vmulq_f32 E self.val6 other.val6) (vmulq_f32 E self.val7 other.val7)
  ret

/-- `operator/=` (detail/short_vec_neon_float_32.hpp:177-217; neon, neon_lp64) -/
def opDivAssign_neon (E : FEnv) (self : V) (other : V) : V :=
  let reciprocal1 : F32x4 := vrecpeq_f32 E other.val0
  let reciprocal2 : F32x4 := vrecpeq_f32 E other.val1
  let reciprocal3 : F32x4 := vrecpeq_f32 E other.val2
  let reciprocal4 : F32x4 := vrecpeq_f32 E other.val3
  let reciprocal5 : F32x4 := vrecpeq_f32 E other.val4
  let reciprocal6 : F32x4 := vrecpeq_f32 E other.val5
  let reciprocal7 : F32x4 := vrecpeq_f32 E other.val6
  let reciprocal8 : F32x4 := vrecpeq_f32 E other.val7
  let reciprocal1 : F32x4 := vmulq_f32 E (vrecpsq_f32 E other.val0 reciprocal1) reciprocal1
  let reciprocal2 : F32x4 := vmulq_f32 E (vrecpsq_f32 E other.val1 reciprocal2) reciprocal2
  let reciprocal3 : F32x4 := vmulq_f32 E (vrecpsq_f32 E other.val2 reciprocal3) reciprocal3
  let reciprocal4 : F32x4 := vmulq_f32 E (vrecpsq_f32 E other.val3 reciprocal4) reciprocal4
  let reciprocal5 : F32x4 := vmulq_f32 E (vrecpsq_f32 E other.val4 reciprocal5) reciprocal5
  let reciprocal6 : F32x4 := vmulq_f32 E (vrecpsq_f32 E other.val5 reciprocal6) reciprocal6
  let reciprocal7 : F32x4 := vmulq_f32 E (vrecpsq_f32 E other.val6 reciprocal7) reciprocal7
  let reciprocal8 : F32x4 := vmulq_f32 E (vrecpsq_f32 E other.val7 reciprocal8) reciprocal8
  let val0 : F32x4 := vmulq_f32 E self.val0 reciprocal1
  let val1 : F32x4 := vmulq_f32 E self.val1 reciprocal2
  let val2 : F32x4 := vmulq_f32 E self.val2 reciprocal3
  let val3 : F32x4 := vmulq_f32 E self.val3 reciprocal4
  let val4 : F32x4 := vmulq_f32 E self.val4 reciprocal5
  let val5 : F32x4 := vmulq_f32 E self.val5 reciprocal6
  let val6 : F32x4 := vmulq_f32 E self.val6 reciprocal7
  let val7 : F32x4 := vmulq_f32 E self.val7 reciprocal8
  ⟨val0, val1, val2, val3, val4, val5, val6, val7⟩

/-- `operator/=` (detail/short_vec_neon_float_32.hpp:177-217; neon_prec, neon_prec_lp64) -/
def opDivAssign_neon_prec (E : FEnv) (self : V) (other : V) : V :=
  let reciprocal1 : F32x4 := vrecpeq_f32 E other.val0
  let reciprocal2 : F32x4 := vrecpeq_f32 E other.val1
  let reciprocal3 : F32x4 := vrecpeq_f32 E other.val2
  let reciprocal4 : F32x4 := vrecpeq_f32 E other.val3
  let reciprocal5 : F32x4 := vrecpeq_f32 E other.val4
  let reciprocal6 : F32x4 := vrecpeq_f32 E other.val5
  let reciprocal7 : F32x4 := vrecpeq_f32 E other.val6
  let reciprocal8 : F32x4 := vrecpeq_f32 E other.val7
  let reciprocal1 : F32x4 := vmulq_f32 E (vrecpsq_f32 E other.val0 reciprocal1) reciprocal1
  let reciprocal2 : F32x4 := vmulq_f32 E (vrecpsq_f32 E other.val1 reciprocal2) reciprocal2
  let reciprocal3 : F32x4 := vmulq_f32 E (vrecpsq_f32 E other.val2 reciprocal3) reciprocal3
  let reciprocal4 : F32x4 := vmulq_f32 E (vrecpsq_f32 E other.val3 reciprocal4) reciprocal4
  let reciprocal5 : F32x4 := vmulq_f32 E (vrecpsq_f32 E other.val4 reciprocal5) reciprocal5
  let reciprocal6 : F32x4 := vmulq_f32 E (vrecpsq_f32 E other.val5 reciprocal6) reciprocal6
  let reciprocal7 : F32x4 := vmulq_f32 E (vrecpsq_f32 E other.val6 reciprocal7) reciprocal7
  let reciprocal8 : F32x4 := vmulq_f32 E (vrecpsq_f32 E other.val7 reciprocal8) reciprocal8
  let reciprocal1 : F32x4 := vmulq_f32 E (vrecpsq_f32 E other.val0 reciprocal1) reciprocal1
  let reciprocal2 : F32x4 := vmulq_f32 E (vrecpsq_f32 E other.val1 reciprocal2) reciprocal2
  let reciprocal3 : F32x4 := vmulq_f32 E (vrecpsq_f32 E other.val2 reciprocal3) reciprocal3
  let reciprocal4 : F32x4 := vmulq_f32 E (vrecpsq_f32 E other.val3 reciprocal4) reciprocal4
  let reciprocal5 : F32x4 := vmulq_f32 E (vrecpsq_f32 E other.val4 reciprocal5) reciprocal5
  let reciprocal6 : F32x4 := vmulq_f32 E (vrecpsq_f32 E other.val5 reciprocal6) reciprocal6
  let reciprocal7 : F32x4 := vmulq_f32 E (vrecpsq_f32 E other.val6 reciprocal7) reciprocal7
  let reciprocal8 : F32x4 := vmulq_f32 E (vrecpsq_f32 E other.val7 reciprocal8) reciprocal8
  let val0 : F32x4 := vmulq_f32 E self.val0 reciprocal1
  let val1 : F32x4 := vmulq_f32 E self.val1 reciprocal2
  let val2 : F32x4 := vmulq_f32 E self.val2 reciprocal3
  let val3 : F32x4 := vmulq_f32 E self.val3 reciprocal4
  let val4 : F32x4 := vmulq_f32 E self.val4 reciprocal5
  let val5 : F32x4 := vmulq_f32 E self.val5 reciprocal6
  let val6 : F32x4 := vmulq_f32 E self.val6 reciprocal7
  let val7 : F32x4 := vmulq_f32 E self.val7 reciprocal8
  ⟨val0, val1, val2, val3, val4, val5, val6, val7⟩

/-- `operator/` (detail/short_vec_neon_float_32.hpp:225-277; neon, neon_lp64) -/
def opDiv_neon (E : FEnv) (self : V) (other : V) : V :=
  let reciprocal1 : F32x4 := vrecpeq_f32 E other.val0
  let reciprocal2 : F32x4 := vrecpeq_f32 E other.val1
  let reciprocal3 : F32x4 := vrecpeq_f32 E other.val2
  let reciprocal4 : F32x4 := vrecpeq_f32 E other.val3
  let reciprocal5 : F32x4 := vrecpeq_f32 E other.val4
  let reciprocal6 : F32x4 := vrecpeq_f32 E other.val5
  let reciprocal7 : F32x4 := vrecpeq_f32 E other.val6
  let reciprocal8 : F32x4 := vrecpeq_f32 E other.val7
  let reciprocal1 : F32x4 := vmulq_f32 E (vrecpsq_f32 E other.val0 reciprocal1) reciprocal1
  let reciprocal2 : F32x4 := vmulq_f32 E (vrecpsq_f32 E other.val1 reciprocal2) reciprocal2
  let reciprocal3 : F32x4 := vmulq_f32 E (vrecpsq_f32 E other.val2 reciprocal3) reciprocal3
  let reciprocal4 : F32x4 := vmulq_f32 E (vrecpsq_f32 E other.val3 reciprocal4) reciprocal4
  let reciprocal5 : F32x4 := vmulq_f32 E (vrecpsq_f32 E other.val4 reciprocal5) reciprocal5
  let reciprocal6 : F32x4 := vmulq_f32 E (vrecpsq_f32 E other.val5 reciprocal6) reciprocal6
  let reciprocal7 : F32x4 := vmulq_f32 E (vrecpsq_f32 E other.val6 reciprocal7) reciprocal7
  let reciprocal8 : F32x4 := vmulq_f32 E (vrecpsq_f32 E other.val7 reciprocal8) reciprocal8
  let result1 : F32x4 := vmulq_f32 E self.val0 reciprocal1
  let result2 : F32x4 := vmulq_f32 E self.val1 reciprocal2
  let result3 : F32x4 := vmulq_f32 E self.val2 reciprocal3
  let result4 : F32x4 := vmulq_f32 E self.val3 reciprocal4
  let result5 : F32x4 := vmulq_f32 E self.val4 reciprocal5
  let result6 : F32x4 := vmulq_f32 E self.val5 reciprocal6
  let result7 : F32x4 := vmulq_f32 E self.val6 reciprocal7
  let result8 : F32x4 := vmulq_f32 E self.val7 reciprocal8
  let ret : V := ofRegs E result1 result2 result3 result4 result5 result6 result7 result8
  ret

/-- `operator/` (detail/short_vec_neon_float_32.hpp:225-277; neon_prec, neon_prec_lp64) -/
def opDiv_neon_prec (E : FEnv) (self : V) (other : V) : V :=
  let reciprocal1 : F32x4 := vrecpeq_f32 E other.val0
  let reciprocal2 : F32x4 := vrecpeq_f32 E other.val1
  let reciprocal3 : F32x4 := vrecpeq_f32 E other.val2
  let reciprocal4 : F32x4 := vrecpeq_f32 E other.val3
  let reciprocal5 : F32x4 := vrecpeq_f32 E other.val4
  let reciprocal6 : F32x4 := vrecpeq_f32 E other.val5
  let reciprocal7 : F32x4 := vrecpeq_f32 E other.val6
  let reciprocal8 : F32x4 := vrecpeq_f32 E other.val7
  let reciprocal1 : F32x4 := vmulq_f32 E (vrecpsq_f32 E other.val0 reciprocal1) reciprocal1
  let reciprocal2 : F32x4 := vmulq_f32 E (vrecpsq_f32 E other.val1 reciprocal2) reciprocal2
  let reciprocal3 : F32x4 := vmulq_f32 E (vrecpsq_f32 E other.val2 reciprocal3) reciprocal3
  let reciprocal4 : F32x4 := vmulq_f32 E (vrecpsq_f32 E other.val3 reciprocal4) reciprocal4
  let reciprocal5 : F32x4 := vmulq_f32 E (vrecpsq_f32 E other.val4 reciprocal5) reciprocal5
  let reciprocal6 : F32x4 := vmulq_f32 E (vrecpsq_f32 E other.val5 reciprocal6) reciprocal6
  let reciprocal7 : F32x4 := vmulq_f32 E (vrecpsq_f32 E other.val6 reciprocal7) reciprocal7
  let reciprocal8 : F32x4 := vmulq_f32 E (vrecpsq_f32 E other.val7 reciprocal8) reciprocal8
  let reciprocal1 : F32x4 := vmulq_f32 E (vrecpsq_f32 E other.val0 reciprocal1) reciprocal1
  let reciprocal2 : F32x4 := vmulq_f32 E (vrecpsq_f32 E other.val1 reciprocal2) reciprocal2
  let reciprocal3 : F32x4 := vmulq_f32 E (vrecpsq_f32 E other.val2 reciprocal3) reciprocal3
  let reciprocal4 : F32x4 := vmulq_f32 E (vrecpsq_f32 E other.val3 reciprocal4) reciprocal4
  let reciprocal5 : F32x4 := vmulq_f32 E (vrecpsq_f32 E other.val4 reciprocal5) reciprocal5
  let reciprocal6 : F32x4 := vmulq_f32 E (vrecpsq_f32 E other.val5 reciprocal6) reciprocal6
  let reciprocal7 : F32x4 := vmulq_f32 E (vrecpsq_f32 E other.val6 reciprocal7) reciprocal7
  let reciprocal8 : F32x4 := vmulq_f32 E (vrecpsq_f32 E other.val7 reciprocal8) reciprocal8
  let result1 : F32x4 := vmulq_f32 E self.val0 reciprocal1
  let result2 : F32x4 := vmulq_f32 E self.val1 reciprocal2
  let result3 : F32x4 := vmulq_f32 E self.val2 reciprocal3
  let result4 : F32x4 := vmulq_f32 E self.val3 reciprocal4
  let result5 : F32x4 := vmulq_f32 E self.val4 reciprocal5
  let result6 : F32x4 := vmulq_f32 E self.val5 reciprocal6
  let result7 : F32x4 := vmulq_f32 E self.val6 reciprocal7
  let result8 : F32x4 := vmulq_f32 E self.val7 reciprocal8
  let ret : V := ofRegs E result1 result2 result3 result4 result5 result6 result7 result8
  ret

/-- `load_aligned` (detail/short_vec_neon_float_32.hpp:372-377) -/
def load_aligned (E : FEnv) (m : Mem 32) (self : V) (data : Int) : Option V := do
  assertAligned 4 data 128
  let v1 ← load E m self data
  some ⟨v1.val0, v1.val1, v1.val2, v1.val3, v1.val4, v1.val5, v1.val6, v1.val7⟩

/-- `store_aligned` (detail/short_vec_neon_float_32.hpp:392-397) -/
def store_aligned (E : FEnv) (self : V) (data : Int) : Option (Writes 32) := do
  assertAligned 4 data 128
  let w1 ← store E self data
  some w1

/-- `store_nt` (detail/short_vec_neon_float_32.hpp:399-437; neon, neon_prec) -/
def store_nt_neon (E : FEnv) (self : V) (data : Int) : Option (Writes 32) := do
  let w1 ← store E self data
  some w1

/-- `store_nt` (detail/short_vec_neon_float_32.hpp:399-437; neon_lp64, neon_prec_lp64) -/
def store_nt_neon_lp64 (E : FEnv) (self : V) (data : Int) : Option (Writes 32) := none

/-- `gather` (detail/short_vec_neon_float_32.hpp:440-477) -/
def gather (E : FEnv) (m : Mem 32) (mo : Mem 32) (self : V) (ptr : Int) (offsets : Int) : Option V := do
  let data : Mem 32 := localArr 32 32
  let t1 ← mo (offsets + 0)
  let t2 ← m (ptr + t1.toInt)
  let data ← wr data 0 t2
  let t3 ← mo (offsets + 1)
  let t4 ← m (ptr + t3.toInt)
  let data ← wr data 1 t4
  let t5 ← mo (offsets + 2)
  let t6 ← m (ptr + t5.toInt)
  let data ← wr data 2 t6
  let t7 ← mo (offsets + 3)
  let t8 ← m (ptr + t7.toInt)
  let data ← wr data 3 t8
  let t9 ← mo (offsets + 4)
  let t10 ← m (ptr + t9.toInt)
  let data ← wr data 4 t10
  let t11 ← mo (offsets + 5)
  let t12 ← m (ptr + t11.toInt)
  let data ← wr data 5 t12
  let t13 ← mo (offsets + 6)
  let t14 ← m (ptr + t13.toInt)
  let data ← wr data 6 t14
  let t15 ← mo (offsets + 7)
  let t16 ← m (ptr + t15.toInt)
  let data ← wr data 7 t16
  let t17 ← mo (offsets + 8)
  let t18 ← m (ptr + t17.toInt)
  let data ← wr data 8 t18
  let t19 ← mo (offsets + 9)
  let t20 ← m (ptr + t19.toInt)
  let data ← wr data 9 t20
  let t21 ← mo (offsets + 10)
  let t22 ← m (ptr + t21.toInt)
  let data ← wr data 10 t22
  let t23 ← mo (offsets + 11)
  let t24 ← m (ptr + t23.toInt)
  let data ← wr data 11 t24
  let t25 ← mo (offsets + 12)
  let t26 ← m (ptr + t25.toInt)
  let data ← wr data 12 t26
  let t27 ← mo (offsets + 13)
  let t28 ← m (ptr + t27.toInt)
  let data ← wr data 13 t28
  let t29 ← mo (offsets + 14)
  let t30 ← m (ptr + t29.toInt)
  let data ← wr data 14 t30
  let t31 ← mo (offsets + 15)
  let t32 ← m (ptr + t31.toInt)
  let data ← wr data 15 t32
  let t33 ← mo (offsets + 16)
  let t34 ← m (ptr + t33.toInt)
  let data ← wr data 16 t34
  let t35 ← mo (offsets + 17)
  let t36 ← m (ptr + t35.toInt)
  let data ← wr data 17 t36
  let t37 ← mo (offsets + 18)
  let t38 ← m (ptr + t37.toInt)
  let data ← wr data 18 t38
  let t39 ← mo (offsets + 19)
  let t40 ← m (ptr + t39.toInt)
  let data ← wr data 19 t40
  let t41 ← mo (offsets + 20)
  let t42 ← m (ptr + t41.toInt)
  let data ← wr data 20 t42
  let t43 ← mo (offsets + 21)
  let t44 ← m (ptr + t43.toInt)
  let data ← wr data 21 t44
  let t45 ← mo (offsets + 22)
  let t46 ← m (ptr + t45.toInt)
  let data ← wr data 22 t46
  let t47 ← mo (offsets + 23)
  let t48 ← m (ptr + t47.toInt)
  let data ← wr data 23 t48
  let t49 ← mo (offsets + 24)
  let t50 ← m (ptr + t49.toInt)
  let data ← wr data 24 t50
  let t51 ← mo (offsets + 25)
  let t52 ← m (ptr + t51.toInt)
  let data ← wr data 25 t52
  let t53 ← mo (offsets + 26)
  let t54 ← m (ptr + t53.toInt)
  let data ← wr data 26 t54
  let t55 ← mo (offsets + 27)
  let t56 ← m (ptr + t55.toInt)
  let data ← wr data 27 t56
  let t57 ← mo (offsets + 28)
  let t58 ← m (ptr + t57.toInt)
  let data ← wr data 28 t58
  let t59 ← mo (offsets + 29)
  let t60 ← m (ptr + t59.toInt)
  let data ← wr data 29 t60
  let t61 ← mo (offsets + 30)
  let t62 ← m (ptr + t61.toInt)
  let data ← wr data 30 t62
  let t63 ← mo (offsets + 31)
  let t64 ← m (ptr + t63.toInt)
  let data ← wr data 31 t64
  let v65 ← load E data self 0
  some ⟨v65.val0, v65.val1, v65.val2, v65.val3, v65.val4, v65.val5, v65.val6, v65.val7⟩

/-- `scatter` (detail/short_vec_neon_float_32.hpp:480-523) -/
def scatter (E : FEnv) (mo : Mem 32) (self : V) (ptr : Int) (offsets : Int) : Option (Writes 32) := do
  let t1 ← mo (offsets + 0)
  let t2 ← mo (offsets + 1)
  let t3 ← mo (offsets + 2)
  let t4 ← mo (offsets + 3)
  let t5 ← mo (offsets + 4)
  let t6 ← mo (offsets + 5)
  let t7 ← mo (offsets + 6)
  let t8 ← mo (offsets + 7)
  let t9 ← mo (offsets + 8)
  let t10 ← mo (offsets + 9)
  let t11 ← mo (offsets + 10)
  let t12 ← mo (offsets + 11)
  let t13 ← mo (offsets + 12)
  let t14 ← mo (offsets + 13)
  let t15 ← mo (offsets + 14)
  let t16 ← mo (offsets + 15)
  let t17 ← mo (offsets + 16)
  let t18 ← mo (offsets + 17)
  let t19 ← mo (offsets + 18)
  let t20 ← mo (offsets + 19)
  let t21 ← mo (offsets + 20)
  let t22 ← mo (offsets + 21)
  let t23 ← mo (offsets + 22)
  let t24 ← mo (offsets + 23)
  let t25 ← mo (offsets + 24)
  let t26 ← mo (offsets + 25)
  let t27 ← mo (offsets + 26)
  let t28 ← mo (offsets + 27)
  let t29 ← mo (offsets + 28)
  let t30 ← mo (offsets + 29)
  let t31 ← mo (offsets + 30)
  let t32 ← mo (offsets + 31)
  some ([(ptr + t1.toInt, self.val0.x0)] ++ [(ptr + t2.toInt, self.val0.x1)] ++ [(ptr + t3.toInt, self.val0.x2)] ++ [(ptr +
      t4.toInt, self.val0.x3)] ++ [(ptr + t5.toInt, self.val1.x0)] ++ [(ptr + t6.toInt, self.val1.x1)] ++ [(ptr + t7.toInt,
      self.val1.x2)] ++ [(ptr + t8.toInt, self.val1.x3)] ++ [(ptr + t9.toInt, self.val2.x0)] ++ [(ptr + t10.toInt,
      self.val2.x1)] ++ [(ptr + t11.toInt, self.val2.x2)] ++ [(ptr + t12.toInt, self.val2.x3)] ++ [(ptr + t13.toInt,
      self.val3.x0)] ++ [(ptr + t14.toInt, self.val3.x1)] ++ [(ptr + t15.toInt, self.val3.x2)] ++ [(ptr + t16.toInt,
      self.val3.x3)] ++ [(ptr + t17.toInt, self.val4.x0)] ++ [(ptr + t18.toInt, self.val4.x1)] ++ [(ptr + t19.toInt,
      self.val4.x2)] ++ [(ptr + t20.toInt, self.val4.x3)] ++ [(ptr + t21.toInt, self.val5.x0)] ++ [(ptr + t22.toInt,
      self.val5.x1)] ++ [(ptr + t23.toInt, self.val5.x2)] ++ [(ptr + t24.toInt, self.val5.x3)] ++ [(ptr + t25.toInt,
      self.val6.x0)] ++ [(ptr + t26.toInt, self.val6.x1)] ++ [(ptr + t27.toInt, self.val6.x2)] ++ [(ptr + t28.toInt,
      self.val6.x3)] ++ [(ptr + t29.toInt, self.val7.x0)] ++ [(ptr + t30.toInt, self.val7.x1)] ++ [(ptr + t31.toInt,
      self.val7.x2)] ++ [(ptr + t32.toInt, self.val7.x3)])

/-- `operator<<`, free function (detail/short_vec_neon_float_32.hpp:529-533) -/
def opStore (E : FEnv) (data : Int) (vec : V) : Option (Writes 32) := do
  let w1 ← store E vec data
  some w1

/-- `sqrt`, free function (detail/short_vec_neon_float_32.hpp:535-539; neon, neon_lp64) -/
def sqrtFn_neon (E : FEnv) (vec : V) : V := sqrt_neon E vec

/-- `sqrt`, free function (detail/short_vec_neon_float_32.hpp:535-539; neon_prec, neon_prec_lp64) -/
def sqrtFn_neon_prec (E : FEnv) (vec : V) : V := sqrt_neon_prec E vec

/-- `operator<<`, free function (detail/short_vec_neon_float_32.hpp:541-572) -/
def print (E : FEnv) (vec : V) : List (Out 32) :=
  [.s "[", .v vec.val0.x0, .s ", ", .v vec.val0.x1, .s ", ", .v vec.val0.x2, .s ", ", .v vec.val0.x3, .s ", ", .v vec.val1.x0,
      .s ", ", .v vec.val1.x1, .s ", ", .v vec.val1.x2, .s ", ", .v vec.val1.x3, .s ", ", .v vec.val2.x0, .s ", ", .v
      vec.val2.x1, .s ", ", .v vec.val2.x2, .s ", ", .v vec.val2.x3, .s ", ", .v vec.val3.x0, .s ", ", .v vec.val3.x1, .s ", ",
      .v vec.val3.x2, .s ", ", .v vec.val3.x3, .s ", ", .v vec.val4.x0, .s ", ", .v vec.val4.x1, .s ", ", .v vec.val4.x2, .s
      ", ", .v vec.val4.x3, .s ", ", .v vec.val5.x0, .s ", ", .v vec.val5.x1, .s ", ", .v vec.val5.x2, .s ", ", .v vec.val5.x3,
      .s ", ", .v vec.val6.x0, .s ", ", .v vec.val6.x1, .s ", ", .v vec.val6.x2, .s ", ", .v vec.val6.x3, .s ", ", .v
      vec.val7.x0, .s ", ", .v vec.val7.x1, .s ", ", .v vec.val7.x2, .s ", ", .v vec.val7.x3, .s "]"]

end LFA.SV.NeonFloat32
