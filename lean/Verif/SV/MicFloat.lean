/-
  Generated by tools/sv_gen.py from detail/short_vec_mic_float_*.hpp.
-/
import Verif.SV.Base
set_option linter.unusedVariables false
set_option autoImplicit false

namespace LFA.SV.MicFloat16

/-- members of `short_vec<float, 16>` (detail/short_vec_mic_float_16.hpp:50) -/
structure V where
  val : M512

/-- lanes, from low to high -/
def V.lanes (v : V) : List (BitVec 32) := SV.lanes v.val

/-- `sqrt_reference<float, 16>`: keeps the vector until the square root is needed -/
structure SqrtRef where
  vec : V

/-- constructor (detail/short_vec_mic_float_16.hpp:61-64) -/
def bcast (E : FEnv) (data : BitVec 32) : V := ⟨_mm512_set1_ps data⟩

/-- constructor (detail/short_vec_mic_float_16.hpp:72-75) -/
def ofRegs (E : FEnv) (val : M512) : V := ⟨val⟩

/-- `load` (detail/short_vec_mic_float_16.hpp:154-159) -/
def load (E : FEnv) (m : Mem 32) (self : V) (data : Int) : Option V := do
  let t1 ← _mm512_loadunpacklo_ps m self.val (data + 0)
  let val : M512 := t1
  let t2 ← _mm512_loadunpackhi_ps m val (data + 16)
  let val : M512 := t2
  some ⟨val⟩

/-- `store` (detail/short_vec_mic_float_16.hpp:168-173) -/
def store (E : FEnv) (self : V) (data : Int) : Option (Writes 32) := do
  let w1 ← _mm512_packstorelo_ps (data + 0) self.val
  let w2 ← _mm512_packstorehi_ps (data + 16) self.val
  some (w1 ++ w2)

/-- `sqrt` (detail/short_vec_mic_float_16.hpp:147-152) -/
def sqrt (E : FEnv) (self : V) : V := ofRegs E (_mm512_sqrt_ps E self.val)

/-- constructor of `sqrt_reference` (detail/short_vec_mic_float_16.hpp:236-239) -/
def ofSqrt (E : FEnv) (other : SqrtRef) : V := ⟨_mm512_sqrt_ps E other.vec.val⟩

/-- constructor (detail/short_vec_mic_float_16.hpp:66-70) -/
def ofPtr (E : FEnv) (m : Mem 32) (data : Int) : Option V := do
  let v1 ← load E m ⟨(uninit : M512)⟩ data
  some ⟨v1.val⟩

/-- constructor (detail/short_vec_mic_float_16.hpp:78-83) -/
def ofList (E : FEnv) (m : Mem 32) (il : Int) : Option V := do
  let v1 ← load E m ⟨(uninit : M512)⟩ il
  some ⟨v1.val⟩

/-- `operator-=` (detail/short_vec_mic_float_16.hpp:89-93) -/
def opSubAssign (E : FEnv) (self : V) (other : V) : V :=
  let val : M512 := _mm512_sub_ps E self.val other.val
  ⟨val⟩

/-- `operator-` (detail/short_vec_mic_float_16.hpp:95-100) -/
def opSub (E : FEnv) (self : V) (other : V) : V := ofRegs E (_mm512_sub_ps E self.val other.val)

/-- `operator+=` (detail/short_vec_mic_float_16.hpp:102-106) -/
def opAddAssign (E : FEnv) (self : V) (other : V) : V :=
  let val : M512 := _mm512_add_ps E self.val other.val
  ⟨val⟩

/-- `operator+` (detail/short_vec_mic_float_16.hpp:108-113) -/
def opAdd (E : FEnv) (self : V) (other : V) : V := ofRegs E (_mm512_add_ps E self.val other.val)

/-- `operator*=` (detail/short_vec_mic_float_16.hpp:115-119) -/
def opMulAssign (E : FEnv) (self : V) (other : V) : V :=
  let val : M512 := _mm512_mul_ps E self.val other.val
  ⟨val⟩

/-- `operator*` (detail/short_vec_mic_float_16.hpp:121-126) -/
def opMul (E : FEnv) (self : V) (other : V) : V := ofRegs E (_mm512_mul_ps E self.val other.val)

/-- `operator/=` (detail/short_vec_mic_float_16.hpp:128-132) -/
def opDivAssign (E : FEnv) (self : V) (other : V) : V :=
  let val : M512 := _mm512_mul_ps E self.val (_mm512_rcp23_ps E other.val)
  ⟨val⟩

/-- `operator/` (detail/short_vec_mic_float_16.hpp:137-142) -/
def opDiv (E : FEnv) (self : V) (other : V) : V := ofRegs E (_mm512_mul_ps E self.val (_mm512_rcp23_ps E other.val))

/-- `load_aligned` (detail/short_vec_mic_float_16.hpp:161-166) -/
def load_aligned (E : FEnv) (m : Mem 32) (self : V) (data : Int) : Option V := do
  assertAligned 4 data 64
  let t1 ← _mm512_load_ps m data
  let val : M512 := t1
  some ⟨val⟩

/-- `store_aligned` (detail/short_vec_mic_float_16.hpp:175-180) -/
def store_aligned (E : FEnv) (self : V) (data : Int) : Option (Writes 32) := do
  assertAligned 4 data 64
  let w1 ← _mm512_store_ps data self.val
  some w1

/-- `store_nt` (detail/short_vec_mic_float_16.hpp:182-187) -/
def store_nt (E : FEnv) (self : V) (data : Int) : Option (Writes 32) := do
  assertAligned 4 data 64
  let w1 ← _mm512_storenr_ps data self.val
  some w1

/-- `gather` (detail/short_vec_mic_float_16.hpp:189-196) -/
def gather (E : FEnv) (m : Mem 32) (mo : Mem 32) (self : V) (ptr : Int) (offsets : Int) : Option V := do
  let indices : M512i := (uninit : M512i)
  assertAligned 4 offsets 64
  let t1 ← _mm512_load_epi32 mo offsets
  let indices : M512i := t1
  let t2 ← _mm512_i32gather_ps m indices ptr 4
  let val : M512 := t2
  some ⟨val⟩

/-- `scatter` (detail/short_vec_mic_float_16.hpp:198-205) -/
def scatter (E : FEnv) (mo : Mem 32) (self : V) (ptr : Int) (offsets : Int) : Option (Writes 32) := do
  let indices : M512i := (uninit : M512i)
  assertAligned 4 offsets 64
  let t1 ← _mm512_load_epi32 mo offsets
  let indices : M512i := t1
  let w2 ← _mm512_i32scatter_ps ptr indices self.val 4
  some w2

/-- `operator<<`, free function (detail/short_vec_mic_float_16.hpp:211-215) -/
def opStore (E : FEnv) (data : Int) (vec : V) : Option (Writes 32) := do
  let w1 ← store E vec data
  some w1

/-- `operator/=` of `sqrt_reference` (detail/short_vec_mic_float_16.hpp:241-245) -/
def opDivAssignSqrt (E : FEnv) (self : V) (other : SqrtRef) : V :=
  let val : M512 := _mm512_mul_ps E self.val (_mm512_rsqrt23_ps E other.vec.val)
  ⟨val⟩

/-- `operator/` of `sqrt_reference` (detail/short_vec_mic_float_16.hpp:247-252) -/
def opDivSqrt (E : FEnv) (self : V) (other : SqrtRef) : V :=
  ofRegs E (_mm512_mul_ps E self.val (_mm512_rsqrt23_ps E other.vec.val))

/-- `sqrt`, free function (detail/short_vec_mic_float_16.hpp:254-258) -/
def sqrtFn (E : FEnv) (vec : V) : SqrtRef := SqrtRef.mk vec

/-- `operator<<`, free function (detail/short_vec_mic_float_16.hpp:260-272) -/
def print (E : FEnv) (vec : V) : List (Out 32) :=
  [.s "[", .v vec.val.x0.x0.x0, .s ", ", .v vec.val.x0.x0.x1, .s ", ", .v vec.val.x0.x0.x2, .s ", ", .v vec.val.x0.x0.x3, .s
      ", ", .v vec.val.x0.x1.x0, .s ", ", .v vec.val.x0.x1.x1, .s ", ", .v vec.val.x0.x1.x2, .s ", ", .v vec.val.x0.x1.x3, .s
      ", ", .v vec.val.x1.x0.x0, .s ", ", .v vec.val.x1.x0.x1, .s ", ", .v vec.val.x1.x0.x2, .s ", ", .v vec.val.x1.x0.x3, .s
      ", ", .v vec.val.x1.x1.x0, .s ", ", .v vec.val.x1.x1.x1, .s ", ", .v vec.val.x1.x1.x2, .s ", ", .v vec.val.x1.x1.x3, .s
      "]"]

end LFA.SV.MicFloat16

namespace LFA.SV.MicFloat32

/-- members of `short_vec<float, 32>` (detail/short_vec_mic_float_32.hpp:50) -/
structure V where
  val0 : M512
  val1 : M512

/-- lanes, from low to high -/
def V.lanes (v : V) : List (BitVec 32) := SV.lanes v.val0 ++ (SV.lanes v.val1)

/-- `sqrt_reference<float, 32>`: keeps the vector until the square root is needed -/
structure SqrtRef where
  vec : V

/-- constructor (detail/short_vec_mic_float_32.hpp:61-65) -/
def bcast (E : FEnv) (data : BitVec 32) : V := ⟨_mm512_set1_ps data, _mm512_set1_ps data⟩

/-- constructor (detail/short_vec_mic_float_32.hpp:73-77) -/
def ofRegs (E : FEnv) (val1 : M512) (val2 : M512) : V := ⟨val1, val2⟩

/-- `load` (detail/short_vec_mic_float_32.hpp:165-172) -/
def load (E : FEnv) (m : Mem 32) (self : V) (data : Int) : Option V := do
  let t1 ← _mm512_loadunpacklo_ps m self.val0 (data + 0)
  let val0 : M512 := t1
  let t2 ← _mm512_loadunpackhi_ps m val0 (data + 16)
  let val0 : M512 := t2
  let t3 ← _mm512_loadunpacklo_ps m self.val1 (data + 16)
  let val1 : M512 := t3
  let t4 ← _mm512_loadunpackhi_ps m val1 (data + 32)
  let val1 : M512 := t4
  some ⟨val0, val1⟩

/-- `store` (detail/short_vec_mic_float_32.hpp:182-189) -/
def store (E : FEnv) (self : V) (data : Int) : Option (Writes 32) := do
  let w1 ← _mm512_packstorelo_ps (data + 0) self.val0
  let w2 ← _mm512_packstorehi_ps (data + 16) self.val0
  let w3 ← _mm512_packstorelo_ps (data + 16) self.val1
  let w4 ← _mm512_packstorehi_ps (data + 32) self.val1
  some (w1 ++ w2 ++ w3 ++ w4)

/-- `sqrt` (detail/short_vec_mic_float_32.hpp:157-163) -/
def sqrt (E : FEnv) (self : V) : V := ofRegs E (_mm512_sqrt_ps E self.val0) (_mm512_sqrt_ps E self.val1)

/-- constructor of `sqrt_reference` (detail/short_vec_mic_float_32.hpp:258-262) -/
def ofSqrt (E : FEnv) (other : SqrtRef) : V := ⟨_mm512_sqrt_ps E other.vec.val0, _mm512_sqrt_ps E other.vec.val1⟩

/-- constructor (detail/short_vec_mic_float_32.hpp:67-71) -/
def ofPtr (E : FEnv) (m : Mem 32) (data : Int) : Option V := do
  let v1 ← load E m ⟨(uninit : M512), (uninit : M512)⟩ data
  some ⟨v1.val0, v1.val1⟩

/-- constructor (detail/short_vec_mic_float_32.hpp:80-85) -/
def ofList (E : FEnv) (m : Mem 32) (il : Int) : Option V := do
  let v1 ← load E m ⟨(uninit : M512), (uninit : M512)⟩ il
  some ⟨v1.val0, v1.val1⟩

/-- `operator-=` (detail/short_vec_mic_float_32.hpp:91-96) -/
def opSubAssign (E : FEnv) (self : V) (other : V) : V :=
  let val0 : M512 := _mm512_sub_ps E self.val0 other.val0
  let val1 : M512 := _mm512_sub_ps E self.val1 other.val1
  ⟨val0, val1⟩

/-- `operator-` (detail/short_vec_mic_float_32.hpp:98-104) -/
def opSub (E : FEnv) (self : V) (other : V) : V :=
  ofRegs E (_mm512_sub_ps E self.val0 other.val0) (_mm512_sub_ps E self.val1 other.val1)

/-- `operator+=` (detail/short_vec_mic_float_32.hpp:106-111) -/
def opAddAssign (E : FEnv) (self : V) (other : V) : V :=
  let val0 : M512 := _mm512_add_ps E self.val0 other.val0
  let val1 : M512 := _mm512_add_ps E self.val1 other.val1
  ⟨val0, val1⟩

/-- `operator+` (detail/short_vec_mic_float_32.hpp:113-119) -/
def opAdd (E : FEnv) (self : V) (other : V) : V :=
  ofRegs E (_mm512_add_ps E self.val0 other.val0) (_mm512_add_ps E self.val1 other.val1)

/-- `operator*=` (detail/short_vec_mic_float_32.hpp:121-126) -/
def opMulAssign (E : FEnv) (self : V) (other : V) : V :=
  let val0 : M512 := _mm512_mul_ps E self.val0 other.val0
  let val1 : M512 := _mm512_mul_ps E self.val1 other.val1
  ⟨val0, val1⟩

/-- `operator*` (detail/short_vec_mic_float_32.hpp:128-134) -/
def opMul (E : FEnv) (self : V) (other : V) : V :=
  ofRegs E (_mm512_mul_ps E self.val0 other.val0) (_mm512_mul_ps E self.val1 other.val1)

/-- `operator/=` (detail/short_vec_mic_float_32.hpp:136-141) -/
def opDivAssign (E : FEnv) (self : V) (other : V) : V :=
  let val0 : M512 := _mm512_mul_ps E self.val0 (_mm512_rcp23_ps E other.val0)
  let val1 : M512 := _mm512_mul_ps E self.val1 (_mm512_rcp23_ps E other.val1)
  ⟨val0, val1⟩

/-- `operator/` (detail/short_vec_mic_float_32.hpp:146-152) -/
def opDiv (E : FEnv) (self : V) (other : V) : V :=
  ofRegs E (_mm512_mul_ps E self.val0 (_mm512_rcp23_ps E other.val0)) (_mm512_mul_ps E self.val1 (_mm512_rcp23_ps E other.val1))

/-- `load_aligned` (detail/short_vec_mic_float_32.hpp:174-180) -/
def load_aligned (E : FEnv) (m : Mem 32) (self : V) (data : Int) : Option V := do
  assertAligned 4 data 64
  let t1 ← _mm512_load_ps m (data + 0)
  let val0 : M512 := t1
  let t2 ← _mm512_load_ps m (data + 16)
  let val1 : M512 := t2
  some ⟨val0, val1⟩

/-- `store_aligned` (detail/short_vec_mic_float_32.hpp:191-197) -/
def store_aligned (E : FEnv) (self : V) (data : Int) : Option (Writes 32) := do
  assertAligned 4 data 64
  let w1 ← _mm512_store_ps (data + 0) self.val0
  let w2 ← _mm512_store_ps (data + 16) self.val1
  some (w1 ++ w2)

/-- `store_nt` (detail/short_vec_mic_float_32.hpp:199-205) -/
def store_nt (E : FEnv) (self : V) (data : Int) : Option (Writes 32) := do
  assertAligned 4 data 64
  let w1 ← _mm512_storenr_ps (data + 0) self.val0
  let w2 ← _mm512_storenr_ps (data + 16) self.val1
  some (w1 ++ w2)

/-- `gather` (detail/short_vec_mic_float_32.hpp:207-216) -/
def gather (E : FEnv) (m : Mem 32) (mo : Mem 32) (self : V) (ptr : Int) (offsets : Int) : Option V := do
  let indices : M512i := (uninit : M512i)
  assertAligned 4 offsets 64
  let t1 ← _mm512_load_epi32 mo (offsets + 0)
  let indices : M512i := t1
  let t2 ← _mm512_i32gather_ps m indices ptr 4
  let val0 : M512 := t2
  let t3 ← _mm512_load_epi32 mo (offsets + 16)
  let indices : M512i := t3
  let t4 ← _mm512_i32gather_ps m indices ptr 4
  let val1 : M512 := t4
  some ⟨val0, val1⟩

/-- `scatter` (detail/short_vec_mic_float_32.hpp:218-227) -/
def scatter (E : FEnv) (mo : Mem 32) (self : V) (ptr : Int) (offsets : Int) : Option (Writes 32) := do
  let indices : M512i := (uninit : M512i)
  assertAligned 4 offsets 64
  let t1 ← _mm512_load_epi32 mo (offsets + 0)
  let indices : M512i := t1
  let w2 ← _mm512_i32scatter_ps ptr indices self.val0 4
  let t3 ← _mm512_load_epi32 mo (offsets + 16)
  let indices : M512i := t3
  let w4 ← _mm512_i32scatter_ps ptr indices self.val1 4
  some (w2 ++ w4)

/-- `operator<<`, free function (detail/short_vec_mic_float_32.hpp:233-237) -/
def opStore (E : FEnv) (data : Int) (vec : V) : Option (Writes 32) := do
  let w1 ← store E vec data
  some w1

/-- `operator/=` of `sqrt_reference` (detail/short_vec_mic_float_32.hpp:264-269) -/
def opDivAssignSqrt (E : FEnv) (self : V) (other : SqrtRef) : V :=
  let val0 : M512 := _mm512_mul_ps E self.val0 (_mm512_rsqrt23_ps E other.vec.val0)
  let val1 : M512 := _mm512_mul_ps E self.val1 (_mm512_rsqrt23_ps E other.vec.val1)
  ⟨val0, val1⟩

/-- `operator/` of `sqrt_reference` (detail/short_vec_mic_float_32.hpp:271-277) -/
def opDivSqrt (E : FEnv) (self : V) (other : SqrtRef) : V :=
  ofRegs E (_mm512_mul_ps E self.val0 (_mm512_rsqrt23_ps E other.vec.val0)) (_mm512_mul_ps E self.val1 (_mm512_rsqrt23_ps E
      other.vec.val1))

/-- `sqrt`, free function (detail/short_vec_mic_float_32.hpp:279-283) -/
def sqrtFn (E : FEnv) (vec : V) : SqrtRef := SqrtRef.mk vec

/-- `operator<<`, free function (detail/short_vec_mic_float_32.hpp:285-302) -/
def print (E : FEnv) (vec : V) : List (Out 32) :=
  [.s "[", .v vec.val0.x0.x0.x0, .s ", ", .v vec.val0.x0.x0.x1, .s ", ", .v vec.val0.x0.x0.x2, .s ", ", .v vec.val0.x0.x0.x3,
      .s ", ", .v vec.val0.x0.x1.x0, .s ", ", .v vec.val0.x0.x1.x1, .s ", ", .v vec.val0.x0.x1.x2, .s ", ", .v
      vec.val0.x0.x1.x3, .s ", ", .v vec.val0.x1.x0.x0, .s ", ", .v vec.val0.x1.x0.x1, .s ", ", .v vec.val0.x1.x0.x2, .s ", ",
      .v vec.val0.x1.x0.x3, .s ", ", .v vec.val0.x1.x1.x0, .s ", ", .v vec.val0.x1.x1.x1, .s ", ", .v vec.val0.x1.x1.x2, .s
      ", ", .v vec.val0.x1.x1.x3, .s ", ", .v vec.val1.x0.x0.x0, .s ", ", .v vec.val1.x0.x0.x1, .s ", ", .v vec.val1.x0.x0.x2,
      .s ", ", .v vec.val1.x0.x0.x3, .s ", ", .v vec.val1.x0.x1.x0, .s ", ", .v vec.val1.x0.x1.x1, .s ", ", .v
      vec.val1.x0.x1.x2, .s ", ", .v vec.val1.x0.x1.x3, .s ", ", .v vec.val1.x1.x0.x0, .s ", ", .v vec.val1.x1.x0.x1, .s ", ",
      .v vec.val1.x1.x0.x2, .s ", ", .v vec.val1.x1.x0.x3, .s ", ", .v vec.val1.x1.x1.x0, .s ", ", .v vec.val1.x1.x1.x1, .s
      ", ", .v vec.val1.x1.x1.x2, .s ", ", .v vec.val1.x1.x1.x3, .s "]"]

end LFA.SV.MicFloat32
