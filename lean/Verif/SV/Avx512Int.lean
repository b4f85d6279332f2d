/-
  Generated by tools/sv_gen.py from detail/short_vec_avx512_int_*.hpp.
-/
import Verif.SV.Base
set_option linter.unusedVariables false
set_option autoImplicit false

namespace LFA.SV.Avx512Int16

/-- members of `short_vec<int, 16>` (detail/short_vec_avx512_int_16.hpp:51) -/
structure V where
  val : M512i

/-- lanes, from low to high -/
def V.lanes (v : V) : List (BitVec 32) := SV.lanes v.val

/-- `sqrt_reference<int, 16>`: keeps the vector until the square root is needed -/
structure SqrtRef where
  vec : V

/-- constructor (detail/short_vec_avx512_int_16.hpp:63-66) -/
def bcast (E : FEnv) (data : BitVec 32) : V := ⟨_mm512_set1_epi32 data⟩

/-- constructor (detail/short_vec_avx512_int_16.hpp:74-77) -/
def ofRegs (E : FEnv) (val : M512i) : V := ⟨val⟩

/-- `load` (detail/short_vec_avx512_int_16.hpp:159-163) -/
def load (E : FEnv) (m : Mem 32) (self : V) (data : Int) : Option V := do
  let t1 ← _mm512_loadu_si512 m data
  let val : M512i := t1
  some ⟨val⟩

/-- `store` (detail/short_vec_avx512_int_16.hpp:172-176) -/
def store (E : FEnv) (self : V) (data : Int) : Option (Writes 32) := do
  let w1 ← _mm512_storeu_si512 data self.val
  some w1

/-- `sqrt` (detail/short_vec_avx512_int_16.hpp:151-157) -/
def sqrt (E : FEnv) (self : V) : V :=
  ofRegs E (_mm512_cvtps_epi32 E (_mm512_sqrt_ps E (_mm512_cvtepi32_ps E self.val)))

/-- constructor of `sqrt_reference` (detail/short_vec_avx512_int_16.hpp:235-240) -/
def ofSqrt (E : FEnv) (other : SqrtRef) : V :=
  ⟨_mm512_cvtps_epi32 E (_mm512_sqrt_ps E (_mm512_cvtepi32_ps E other.vec.val))⟩

/-- constructor (detail/short_vec_avx512_int_16.hpp:68-72) -/
def ofPtr (E : FEnv) (m : Mem 32) (data : Int) : Option V := do
  let v1 ← load E m ⟨(uninit : M512i)⟩ data
  some ⟨v1.val⟩

/-- constructor (detail/short_vec_avx512_int_16.hpp:80-85) -/
def ofList (E : FEnv) (m : Mem 32) (il : Int) : Option V := do
  let v1 ← load E m ⟨(uninit : M512i)⟩ il
  some ⟨v1.val⟩

/-- `operator-=` (detail/short_vec_avx512_int_16.hpp:91-95) -/
def opSubAssign (E : FEnv) (self : V) (other : V) : V :=
  let val : M512i := _mm512_sub_epi32 self.val other.val
  ⟨val⟩

/-- `operator-` (detail/short_vec_avx512_int_16.hpp:97-102) -/
def opSub (E : FEnv) (self : V) (other : V) : V := ofRegs E (_mm512_sub_epi32 self.val other.val)

/-- `operator+=` (detail/short_vec_avx512_int_16.hpp:104-108) -/
def opAddAssign (E : FEnv) (self : V) (other : V) : V :=
  let val : M512i := _mm512_add_epi32 self.val other.val
  ⟨val⟩

/-- `operator+` (detail/short_vec_avx512_int_16.hpp:110-115) -/
def opAdd (E : FEnv) (self : V) (other : V) : V := ofRegs E (_mm512_add_epi32 self.val other.val)

/-- `operator*=` (detail/short_vec_avx512_int_16.hpp:117-121) -/
def opMulAssign (E : FEnv) (self : V) (other : V) : V :=
  let val : M512i := _mm512_mullo_epi32 self.val other.val
  ⟨val⟩

/-- `operator*` (detail/short_vec_avx512_int_16.hpp:123-128) -/
def opMul (E : FEnv) (self : V) (other : V) : V := ofRegs E (_mm512_mullo_epi32 self.val other.val)

/-- `operator/=` (detail/short_vec_avx512_int_16.hpp:130-135) -/
def opDivAssign (E : FEnv) (self : V) (other : V) : V :=
  let val : M512i := _mm512_cvtps_epi32 E (_mm512_div_ps E (_mm512_cvtepi32_ps E self.val) (_mm512_cvtepi32_ps E other.val))
  ⟨val⟩

/-- `operator/` (detail/short_vec_avx512_int_16.hpp:140-146) -/
def opDiv (E : FEnv) (self : V) (other : V) : V :=
  ofRegs E (_mm512_cvttps_epi32 E (_mm512_div_ps E (_mm512_cvtepi32_ps E self.val) (_mm512_cvtepi32_ps E other.val)))

/-- `load_aligned` (detail/short_vec_avx512_int_16.hpp:165-170) -/
def load_aligned (E : FEnv) (m : Mem 32) (self : V) (data : Int) : Option V := do
  assertAligned 4 data 64
  let t1 ← _mm512_load_epi32 m data
  let val : M512i := t1
  some ⟨val⟩

/-- `store_aligned` (detail/short_vec_avx512_int_16.hpp:178-183) -/
def store_aligned (E : FEnv) (self : V) (data : Int) : Option (Writes 32) := do
  assertAligned 4 data 64
  let w1 ← _mm512_store_epi32 data self.val
  some w1

/-- `store_nt` (detail/short_vec_avx512_int_16.hpp:185-190) -/
def store_nt (E : FEnv) (self : V) (data : Int) : Option (Writes 32) := do
  assertAligned 4 data 64
  let w1 ← _mm512_stream_si512 data self.val
  some w1

/-- `gather` (detail/short_vec_avx512_int_16.hpp:192-197) -/
def gather (E : FEnv) (m : Mem 32) (mo : Mem 32) (self : V) (ptr : Int) (offsets : Int) : Option V := do
  let t1 ← _mm512_loadu_si512 mo offsets
  let indices : M512i := t1
  let t2 ← _mm512_i32gather_epi32 m indices ptr 4
  let val : M512i := t2
  some ⟨val⟩

/-- `scatter` (detail/short_vec_avx512_int_16.hpp:199-204) -/
def scatter (E : FEnv) (mo : Mem 32) (self : V) (ptr : Int) (offsets : Int) : Option (Writes 32) := do
  let t1 ← _mm512_loadu_si512 mo offsets
  let indices : M512i := t1
  let w2 ← _mm512_i32scatter_epi32 ptr indices self.val 4
  some w2

/-- `operator<<`, free function (detail/short_vec_avx512_int_16.hpp:210-214) -/
def opStore (E : FEnv) (data : Int) (vec : V) : Option (Writes 32) := do
  let w1 ← store E vec data
  some w1

/-- `operator/=` of `sqrt_reference` (detail/short_vec_avx512_int_16.hpp:242-248) -/
def opDivAssignSqrt (E : FEnv) (self : V) (other : SqrtRef) : V :=
  let val : M512i := _mm512_cvtps_epi32 E (_mm512_mul_ps E (_mm512_cvtepi32_ps E self.val) (_mm512_rsqrt14_ps E
      (_mm512_cvtepi32_ps E other.vec.val)))
  ⟨val⟩

/-- `operator/` of `sqrt_reference` (detail/short_vec_avx512_int_16.hpp:250-257) -/
def opDivSqrt (E : FEnv) (self : V) (other : SqrtRef) : V :=
  ofRegs E (_mm512_cvtps_epi32 E (_mm512_mul_ps E (_mm512_cvtepi32_ps E self.val) (_mm512_rsqrt14_ps E (_mm512_cvtepi32_ps E
      other.vec.val))))

/-- `sqrt`, free function (detail/short_vec_avx512_int_16.hpp:259-263) -/
def sqrtFn (E : FEnv) (vec : V) : SqrtRef := SqrtRef.mk vec

/-- `operator<<`, free function (detail/short_vec_avx512_int_16.hpp:265-278) -/
def print (E : FEnv) (vec : V) : List (Out 32) :=
  [.s "[", .v vec.val.x0.x0.x0, .s ", ", .v vec.val.x0.x0.x1, .s ", ", .v vec.val.x0.x0.x2, .s ", ", .v vec.val.x0.x0.x3, .s
      ", ", .v vec.val.x0.x1.x0, .s ", ", .v vec.val.x0.x1.x1, .s ", ", .v vec.val.x0.x1.x2, .s ", ", .v vec.val.x0.x1.x3, .s
      ", ", .v vec.val.x1.x0.x0, .s ", ", .v vec.val.x1.x0.x1, .s ", ", .v vec.val.x1.x0.x2, .s ", ", .v vec.val.x1.x0.x3, .s
      ", ", .v vec.val.x1.x1.x0, .s ", ", .v vec.val.x1.x1.x1, .s ", ", .v vec.val.x1.x1.x2, .s ", ", .v vec.val.x1.x1.x3, .s
      "]"]

end LFA.SV.Avx512Int16

namespace LFA.SV.Avx512Int32

/-- members of `short_vec<int, 32>` (detail/short_vec_avx512_int_32.hpp:51) -/
structure V where
  val0 : M512i
  val1 : M512i

/-- lanes, from low to high -/
def V.lanes (v : V) : List (BitVec 32) := SV.lanes v.val0 ++ (SV.lanes v.val1)

/-- `sqrt_reference<int, 32>`: keeps the vector until the square root is needed -/
structure SqrtRef where
  vec : V

/-- constructor (detail/short_vec_avx512_int_32.hpp:63-67) -/
def bcast (E : FEnv) (data : BitVec 32) : V := ⟨_mm512_set1_epi32 data, _mm512_set1_epi32 data⟩

/-- constructor (detail/short_vec_avx512_int_32.hpp:75-79) -/
def ofRegs (E : FEnv) (val1 : M512i) (val2 : M512i) : V := ⟨val1, val2⟩

/-- `load` (detail/short_vec_avx512_int_32.hpp:173-178) -/
def load (E : FEnv) (m : Mem 32) (self : V) (data : Int) : Option V := do
  let t1 ← _mm512_loadu_si512 m (data + 0)
  let val0 : M512i := t1
  let t2 ← _mm512_loadu_si512 m (data + 16)
  let val1 : M512i := t2
  some ⟨val0, val1⟩

/-- `store` (detail/short_vec_avx512_int_32.hpp:188-193) -/
def store (E : FEnv) (self : V) (data : Int) : Option (Writes 32) := do
  let w1 ← _mm512_storeu_si512 (data + 0) self.val0
  let w2 ← _mm512_storeu_si512 (data + 16) self.val1
  some (w1 ++ w2)

/-- `sqrt` (detail/short_vec_avx512_int_32.hpp:163-171) -/
def sqrt (E : FEnv) (self : V) : V :=
  ofRegs E (_mm512_cvtps_epi32 E (_mm512_sqrt_ps E (_mm512_cvtepi32_ps E self.val0))) (_mm512_cvtps_epi32 E (_mm512_sqrt_ps E
      (_mm512_cvtepi32_ps E self.val1)))

/-- constructor of `sqrt_reference` (detail/short_vec_avx512_int_32.hpp:258-266) -/
def ofSqrt (E : FEnv) (other : SqrtRef) : V :=
  ⟨_mm512_cvtps_epi32 E (_mm512_sqrt_ps E (_mm512_cvtepi32_ps E other.vec.val0)), _mm512_cvtps_epi32 E (_mm512_sqrt_ps E
      (_mm512_cvtepi32_ps E other.vec.val1))⟩

/-- constructor (detail/short_vec_avx512_int_32.hpp:69-73) -/
def ofPtr (E : FEnv) (m : Mem 32) (data : Int) : Option V := do
  let v1 ← load E m ⟨(uninit : M512i), (uninit : M512i)⟩ data
  some ⟨v1.val0, v1.val1⟩

/-- constructor (detail/short_vec_avx512_int_32.hpp:82-87) -/
def ofList (E : FEnv) (m : Mem 32) (il : Int) : Option V := do
  let v1 ← load E m ⟨(uninit : M512i), (uninit : M512i)⟩ il
  some ⟨v1.val0, v1.val1⟩

/-- `operator-=` (detail/short_vec_avx512_int_32.hpp:93-98) -/
def opSubAssign (E : FEnv) (self : V) (other : V) : V :=
  let val0 : M512i := _mm512_sub_epi32 self.val0 other.val0
  let val1 : M512i := _mm512_sub_epi32 self.val1 other.val1
  ⟨val0, val1⟩

/-- `operator-` (detail/short_vec_avx512_int_32.hpp:100-106) -/
def opSub (E : FEnv) (self : V) (other : V) : V :=
  ofRegs E (_mm512_sub_epi32 self.val0 other.val0) (_mm512_sub_epi32 self.val1 other.val1)

/-- `operator+=` (detail/short_vec_avx512_int_32.hpp:108-113) -/
def opAddAssign (E : FEnv) (self : V) (other : V) : V :=
  let val0 : M512i := _mm512_add_epi32 self.val0 other.val0
  let val1 : M512i := _mm512_add_epi32 self.val1 other.val1
  ⟨val0, val1⟩

/-- `operator+` (detail/short_vec_avx512_int_32.hpp:115-121) -/
def opAdd (E : FEnv) (self : V) (other : V) : V :=
  ofRegs E (_mm512_add_epi32 self.val0 other.val0) (_mm512_add_epi32 self.val1 other.val1)

/-- `operator*=` (detail/short_vec_avx512_int_32.hpp:123-128) -/
def opMulAssign (E : FEnv) (self : V) (other : V) : V :=
  let val0 : M512i := _mm512_mullo_epi32 self.val0 other.val0
  let val1 : M512i := _mm512_mullo_epi32 self.val1 other.val1
  ⟨val0, val1⟩

/-- `operator*` (detail/short_vec_avx512_int_32.hpp:130-136) -/
def opMul (E : FEnv) (self : V) (other : V) : V :=
  ofRegs E (_mm512_mullo_epi32 self.val0 other.val0) (_mm512_mullo_epi32 self.val1 other.val1)

/-- `operator/=` (detail/short_vec_avx512_int_32.hpp:138-145) -/
def opDivAssign (E : FEnv) (self : V) (other : V) : V :=
  let val0 : M512i := _mm512_cvtps_epi32 E (_mm512_div_ps E (_mm512_cvtepi32_ps E self.val0) (_mm512_cvtepi32_ps E other.val0))
  let val1 : M512i := _mm512_cvtps_epi32 E (_mm512_div_ps E (_mm512_cvtepi32_ps E self.val1) (_mm512_cvtepi32_ps E other.val1))
  ⟨val0, val1⟩

/-- `operator/` (detail/short_vec_avx512_int_32.hpp:150-158) -/
def opDiv (E : FEnv) (self : V) (other : V) : V :=
  ofRegs E (_mm512_cvttps_epi32 E (_mm512_div_ps E (_mm512_cvtepi32_ps E self.val0) (_mm512_cvtepi32_ps E other.val0)))
      (_mm512_cvttps_epi32 E (_mm512_div_ps E (_mm512_cvtepi32_ps E self.val1) (_mm512_cvtepi32_ps E other.val1)))

/-- `load_aligned` (detail/short_vec_avx512_int_32.hpp:180-186) -/
def load_aligned (E : FEnv) (m : Mem 32) (self : V) (data : Int) : Option V := do
  assertAligned 4 data 64
  let t1 ← _mm512_load_epi32 m (data + 0)
  let val0 : M512i := t1
  let t2 ← _mm512_load_epi32 m (data + 16)
  let val1 : M512i := t2
  some ⟨val0, val1⟩

/-- `store_aligned` (detail/short_vec_avx512_int_32.hpp:195-201) -/
def store_aligned (E : FEnv) (self : V) (data : Int) : Option (Writes 32) := do
  assertAligned 4 data 64
  let w1 ← _mm512_store_epi32 (data + 0) self.val0
  let w2 ← _mm512_store_epi32 (data + 16) self.val1
  some (w1 ++ w2)

/-- `store_nt` (detail/short_vec_avx512_int_32.hpp:203-209) -/
def store_nt (E : FEnv) (self : V) (data : Int) : Option (Writes 32) := do
  assertAligned 4 data 64
  let w1 ← _mm512_stream_si512 (data + 0) self.val0
  let w2 ← _mm512_stream_si512 (data + 16) self.val1
  some (w1 ++ w2)

/-- `gather` (detail/short_vec_avx512_int_32.hpp:211-218) -/
def gather (E : FEnv) (m : Mem 32) (mo : Mem 32) (self : V) (ptr : Int) (offsets : Int) : Option V := do
  let t1 ← _mm512_loadu_si512 mo (offsets + 0)
  let indices1 : M512i := t1
  let t2 ← _mm512_loadu_si512 mo (offsets + 16)
  let indices2 : M512i := t2
  let t3 ← _mm512_i32gather_epi32 m indices1 ptr 4
  let val0 : M512i := t3
  let t4 ← _mm512_i32gather_epi32 m indices2 ptr 4
  let val1 : M512i := t4
  some ⟨val0, val1⟩

/-- `scatter` (detail/short_vec_avx512_int_32.hpp:220-227) -/
def scatter (E : FEnv) (mo : Mem 32) (self : V) (ptr : Int) (offsets : Int) : Option (Writes 32) := do
  let t1 ← _mm512_loadu_si512 mo (offsets + 0)
  let indices1 : M512i := t1
  let t2 ← _mm512_loadu_si512 mo (offsets + 16)
  let indices2 : M512i := t2
  let w3 ← _mm512_i32scatter_epi32 ptr indices1 self.val0 4
  let w4 ← _mm512_i32scatter_epi32 ptr indices2 self.val1 4
  some (w3 ++ w4)

/-- `operator<<`, free function (detail/short_vec_avx512_int_32.hpp:233-237) -/
def opStore (E : FEnv) (data : Int) (vec : V) : Option (Writes 32) := do
  let w1 ← store E vec data
  some w1

/-- `operator/=` of `sqrt_reference` (detail/short_vec_avx512_int_32.hpp:268-277) -/
def opDivAssignSqrt (E : FEnv) (self : V) (other : SqrtRef) : V :=
  let val0 : M512i := _mm512_cvtps_epi32 E (_mm512_mul_ps E (_mm512_cvtepi32_ps E self.val0) (_mm512_rsqrt14_ps E
      (_mm512_cvtepi32_ps E other.vec.val0)))
  let val1 : M512i := _mm512_cvtps_epi32 E (_mm512_mul_ps E (_mm512_cvtepi32_ps E self.val1) (_mm512_rsqrt14_ps E
      (_mm512_cvtepi32_ps E other.vec.val1)))
  ⟨val0, val1⟩

/-- `operator/` of `sqrt_reference` (detail/short_vec_avx512_int_32.hpp:279-289) -/
def opDivSqrt (E : FEnv) (self : V) (other : SqrtRef) : V :=
  ofRegs E (_mm512_cvtps_epi32 E (_mm512_mul_ps E (_mm512_cvtepi32_ps E self.val0) (_mm512_rsqrt14_ps E (_mm512_cvtepi32_ps E
      other.vec.val0)))) (_mm512_cvtps_epi32 E (_mm512_mul_ps E (_mm512_cvtepi32_ps E self.val1) (_mm512_rsqrt14_ps E
      (_mm512_cvtepi32_ps E other.vec.val1))))

/-- `sqrt`, free function (detail/short_vec_avx512_int_32.hpp:291-295) -/
def sqrtFn (E : FEnv) (vec : V) : SqrtRef := SqrtRef.mk vec

/-- `operator<<`, free function (detail/short_vec_avx512_int_32.hpp:297-315) -/
def print (E : FEnv) (vec : V) : List (Out 32) :=
  [.s "[", .v vec.val0.x0.x0.x0, .s ", ", .v vec.val0.x0.x0.x1, .s ", ", .v vec.val0.x0.x0.x2, .s ", ", .v vec.val0.x0.x0.x3,
      .s ", ", .v vec.val0.x0.x1.x0, .s ", ", .v vec.val0.x0.x1.x1, .s ", ", .v vec.val0.x0.x1.x2, .s ", ", .v
      vec.val0.x0.x1.x3, .s ", ", .v vec.val0.x1.x0.x0, .s ", ", .v vec.val0.x1.x0.x1, .s ", ", .v vec.val0.x1.x0.x2, .s ", ",
      .v vec.val0.x1.x0.x3, .s ", ", .v vec.val0.x1.x1.x0, .s ", ", .v vec.val0.x1.x1.x1, .s ", ", .v vec.val0.x1.x1.x2, .s
      ", ", .v vec.val0.x1.x1.x3, .s ", ", .v vec.val1.x0.x0.x0, .s ", ", .v vec.val1.x0.x0.x1, .s ", ", .v vec.val1.x0.x0.x2,
      .s ", ", .v vec.val1.x0.x0.x3, .s ", ", .v vec.val1.x0.x1.x0, .s ", ", .v vec.val1.x0.x1.x1, .s ", ", .v
      vec.val1.x0.x1.x2, .s ", ", .v vec.val1.x0.x1.x3, .s ", ", .v vec.val1.x1.x0.x0, .s ", ", .v vec.val1.x1.x0.x1, .s ", ",
      .v vec.val1.x1.x0.x2, .s ", ", .v vec.val1.x1.x0.x3, .s ", ", .v vec.val1.x1.x1.x0, .s ", ", .v vec.val1.x1.x1.x1, .s
      ", ", .v vec.val1.x1.x1.x2, .s ", ", .v vec.val1.x1.x1.x3, .s "]"]

end LFA.SV.Avx512Int32
