/-
  Generated by tools/sv_gen.py from detail/short_vec_mic_double_*.hpp.
-/
import Verif.SV.Base
set_option linter.unusedVariables false
set_option autoImplicit false

namespace LFA.SV.MicDouble8

/-- members of `short_vec<double, 8>` (detail/short_vec_mic_double_8.hpp:47) -/
structure V where
  val : M512d

/-- lanes, from low to high -/
def V.lanes (v : V) : List (BitVec 64) := SV.lanes v.val

/-- constructor (detail/short_vec_mic_double_8.hpp:58-61) -/
def bcast (E : FEnv) (data : BitVec 64) : V := ⟨_mm512_set1_pd data⟩

/-- constructor (detail/short_vec_mic_double_8.hpp:69-72) -/
def ofRegs (E : FEnv) (val : M512d) : V := ⟨val⟩

/-- `load` (detail/short_vec_mic_double_8.hpp:142-147) -/
def load (E : FEnv) (m : Mem 64) (self : V) (data : Int) : Option V := do
  let t1 ← _mm512_loadunpacklo_pd m self.val (data + 0)
  let val : M512d := t1
  let t2 ← _mm512_loadunpackhi_pd m val (data + 8)
  let val : M512d := t2
  some ⟨val⟩

/-- `store` (detail/short_vec_mic_double_8.hpp:156-161) -/
def store (E : FEnv) (self : V) (data : Int) : Option (Writes 64) := do
  let w1 ← _mm512_packstorelo_pd (data + 0) self.val
  let w2 ← _mm512_packstorehi_pd (data + 8) self.val
  some (w1 ++ w2)

/-- `sqrt` (detail/short_vec_mic_double_8.hpp:135-140) -/
def sqrt (E : FEnv) (self : V) : V := ofRegs E (_mm512_sqrt_pd E self.val)

/-- constructor (detail/short_vec_mic_double_8.hpp:63-67) -/
def ofPtr (E : FEnv) (m : Mem 64) (data : Int) : Option V := do
  let v1 ← load E m ⟨(uninit : M512d)⟩ data
  some ⟨v1.val⟩

/-- constructor (detail/short_vec_mic_double_8.hpp:75-80) -/
def ofList (E : FEnv) (m : Mem 64) (il : Int) : Option V := do
  let v1 ← load E m ⟨(uninit : M512d)⟩ il
  some ⟨v1.val⟩

/-- `operator-=` (detail/short_vec_mic_double_8.hpp:83-87) -/
def opSubAssign (E : FEnv) (self : V) (other : V) : V :=
  let val : M512d := _mm512_sub_pd E self.val other.val
  ⟨val⟩

/-- `operator-` (detail/short_vec_mic_double_8.hpp:89-94) -/
def opSub (E : FEnv) (self : V) (other : V) : V := ofRegs E (_mm512_sub_pd E self.val other.val)

/-- `operator+=` (detail/short_vec_mic_double_8.hpp:96-100) -/
def opAddAssign (E : FEnv) (self : V) (other : V) : V :=
  let val : M512d := _mm512_add_pd E self.val other.val
  ⟨val⟩

/-- `operator+` (detail/short_vec_mic_double_8.hpp:102-107) -/
def opAdd (E : FEnv) (self : V) (other : V) : V := ofRegs E (_mm512_add_pd E self.val other.val)

/-- `operator*=` (detail/short_vec_mic_double_8.hpp:109-113) -/
def opMulAssign (E : FEnv) (self : V) (other : V) : V :=
  let val : M512d := _mm512_mul_pd E self.val other.val
  ⟨val⟩

/-- `operator*` (detail/short_vec_mic_double_8.hpp:115-120) -/
def opMul (E : FEnv) (self : V) (other : V) : V := ofRegs E (_mm512_mul_pd E self.val other.val)

/-- `operator/=` (detail/short_vec_mic_double_8.hpp:122-126) -/
def opDivAssign (E : FEnv) (self : V) (other : V) : V :=
  let val : M512d := _mm512_div_pd E self.val other.val
  ⟨val⟩

/-- `operator/` (detail/short_vec_mic_double_8.hpp:128-133) -/
def opDiv (E : FEnv) (self : V) (other : V) : V := ofRegs E (_mm512_div_pd E self.val other.val)

/-- `load_aligned` (detail/short_vec_mic_double_8.hpp:149-154) -/
def load_aligned (E : FEnv) (m : Mem 64) (self : V) (data : Int) : Option V := do
  assertAligned 8 data 64
  let t1 ← _mm512_load_pd m data
  let val : M512d := t1
  some ⟨val⟩

/-- `store_aligned` (detail/short_vec_mic_double_8.hpp:163-168) -/
def store_aligned (E : FEnv) (self : V) (data : Int) : Option (Writes 64) := do
  assertAligned 8 data 64
  let w1 ← _mm512_store_pd data self.val
  some w1

/-- `store_nt` (detail/short_vec_mic_double_8.hpp:170-175) -/
def store_nt (E : FEnv) (self : V) (data : Int) : Option (Writes 64) := do
  assertAligned 8 data 64
  let w1 ← _mm512_storenr_pd data self.val
  some w1

/-- `gather` (detail/short_vec_mic_double_8.hpp:177-183) -/
def gather (E : FEnv) (m : Mem 64) (mo : Mem 32) (self : V) (ptr : Int) (offsets : Int) : Option V := do
  let indices : M512i := (uninit : M512i)
  let t1 ← _mm512_loadunpacklo_epi32 mo indices offsets
  let indices : M512i := t1
  let t2 ← _mm512_i32logather_pd m indices ptr 8
  let val : M512d := t2
  some ⟨val⟩

/-- `scatter` (detail/short_vec_mic_double_8.hpp:185-191) -/
def scatter (E : FEnv) (mo : Mem 32) (self : V) (ptr : Int) (offsets : Int) : Option (Writes 64) := do
  let indices : M512i := (uninit : M512i)
  let t1 ← _mm512_loadunpacklo_epi32 mo indices offsets
  let indices : M512i := t1
  let w2 ← _mm512_i32loscatter_pd ptr indices self.val 8
  some w2

/-- `operator<<`, free function (detail/short_vec_mic_double_8.hpp:197-201) -/
def opStore (E : FEnv) (data : Int) (vec : V) : Option (Writes 64) := do
  let w1 ← store E vec data
  some w1

/-- `sqrt`, free function (detail/short_vec_mic_double_8.hpp:207-211) -/
def sqrtFn (E : FEnv) (vec : V) : V := sqrt E vec

/-- `operator<<`, free function (detail/short_vec_mic_double_8.hpp:213-224) -/
def print (E : FEnv) (vec : V) : List (Out 64) :=
  [.s "[", .v vec.val.x0.x0.x0, .s ", ", .v vec.val.x0.x0.x1, .s ", ", .v vec.val.x0.x1.x0, .s ", ", .v vec.val.x0.x1.x1, .s
      ", ", .v vec.val.x1.x0.x0, .s ", ", .v vec.val.x1.x0.x1, .s ", ", .v vec.val.x1.x1.x0, .s ", ", .v vec.val.x1.x1.x1, .s
      "]"]

end LFA.SV.MicDouble8

namespace LFA.SV.MicDouble16

/-- members of `short_vec<double, 16>` (detail/short_vec_mic_double_16.hpp:47) -/
structure V where
  val0 : M512d
  val1 : M512d

/-- lanes, from low to high -/
def V.lanes (v : V) : List (BitVec 64) := SV.lanes v.val0 ++ (SV.lanes v.val1)

/-- constructor (detail/short_vec_mic_double_16.hpp:58-62) -/
def bcast (E : FEnv) (data : BitVec 64) : V := ⟨_mm512_set1_pd data, _mm512_set1_pd data⟩

/-- constructor (detail/short_vec_mic_double_16.hpp:70-74) -/
def ofRegs (E : FEnv) (val1 : M512d) (val2 : M512d) : V := ⟨val1, val2⟩

/-- `load` (detail/short_vec_mic_double_16.hpp:153-160) -/
def load (E : FEnv) (m : Mem 64) (self : V) (data : Int) : Option V := do
  let t1 ← _mm512_loadunpacklo_pd m self.val0 (data + 0)
  let val0 : M512d := t1
  let t2 ← _mm512_loadunpackhi_pd m val0 (data + 8)
  let val0 : M512d := t2
  let t3 ← _mm512_loadunpacklo_pd m self.val1 (data + 8)
  let val1 : M512d := t3
  let t4 ← _mm512_loadunpackhi_pd m val1 (data + 16)
  let val1 : M512d := t4
  some ⟨val0, val1⟩

/-- `store` (detail/short_vec_mic_double_16.hpp:170-177) -/
def store (E : FEnv) (self : V) (data : Int) : Option (Writes 64) := do
  let w1 ← _mm512_packstorelo_pd (data + 0) self.val0
  let w2 ← _mm512_packstorehi_pd (data + 8) self.val0
  let w3 ← _mm512_packstorelo_pd (data + 8) self.val1
  let w4 ← _mm512_packstorehi_pd (data + 16) self.val1
  some (w1 ++ w2 ++ w3 ++ w4)

/-- `sqrt` (detail/short_vec_mic_double_16.hpp:145-151) -/
def sqrt (E : FEnv) (self : V) : V := ofRegs E (_mm512_sqrt_pd E self.val0) (_mm512_sqrt_pd E self.val1)

/-- constructor (detail/short_vec_mic_double_16.hpp:64-68) -/
def ofPtr (E : FEnv) (m : Mem 64) (data : Int) : Option V := do
  let v1 ← load E m ⟨(uninit : M512d), (uninit : M512d)⟩ data
  some ⟨v1.val0, v1.val1⟩

/-- constructor (detail/short_vec_mic_double_16.hpp:77-82) -/
def ofList (E : FEnv) (m : Mem 64) (il : Int) : Option V := do
  let v1 ← load E m ⟨(uninit : M512d), (uninit : M512d)⟩ il
  some ⟨v1.val0, v1.val1⟩

/-- `operator-=` (detail/short_vec_mic_double_16.hpp:85-90) -/
def opSubAssign (E : FEnv) (self : V) (other : V) : V :=
  let val0 : M512d := _mm512_sub_pd E self.val0 other.val0
  let val1 : M512d := _mm512_sub_pd E self.val1 other.val1
  ⟨val0, val1⟩

/-- `operator-` (detail/short_vec_mic_double_16.hpp:92-98) -/
def opSub (E : FEnv) (self : V) (other : V) : V :=
  ofRegs E (_mm512_sub_pd E self.val0 other.val0) (_mm512_sub_pd E self.val1 other.val1)

/-- `operator+=` (detail/short_vec_mic_double_16.hpp:100-105) -/
def opAddAssign (E : FEnv) (self : V) (other : V) : V :=
  let val0 : M512d := _mm512_add_pd E self.val0 other.val0
  let val1 : M512d := _mm512_add_pd E self.val1 other.val1
  ⟨val0, val1⟩

/-- `operator+` (detail/short_vec_mic_double_16.hpp:107-113) -/
def opAdd (E : FEnv) (self : V) (other : V) : V :=
  ofRegs E (_mm512_add_pd E self.val0 other.val0) (_mm512_add_pd E self.val1 other.val1)

/-- `operator*=` (detail/short_vec_mic_double_16.hpp:115-120) -/
def opMulAssign (E : FEnv) (self : V) (other : V) : V :=
  let val0 : M512d := _mm512_mul_pd E self.val0 other.val0
  let val1 : M512d := _mm512_mul_pd E self.val1 other.val1
  ⟨val0, val1⟩

/-- `operator*` (detail/short_vec_mic_double_16.hpp:122-128) -/
def opMul (E : FEnv) (self : V) (other : V) : V :=
  ofRegs E (_mm512_mul_pd E self.val0 other.val0) (_mm512_mul_pd E self.val1 other.val1)

/-- `operator/=` (detail/short_vec_mic_double_16.hpp:130-135) -/
def opDivAssign (E : FEnv) (self : V) (other : V) : V :=
  let val0 : M512d := _mm512_div_pd E self.val0 other.val0
  let val1 : M512d := _mm512_div_pd E self.val1 other.val1
  ⟨val0, val1⟩

/-- `operator/` (detail/short_vec_mic_double_16.hpp:137-143) -/
def opDiv (E : FEnv) (self : V) (other : V) : V :=
  ofRegs E (_mm512_div_pd E self.val0 other.val0) (_mm512_div_pd E self.val1 other.val1)

/-- `load_aligned` (detail/short_vec_mic_double_16.hpp:162-168) -/
def load_aligned (E : FEnv) (m : Mem 64) (self : V) (data : Int) : Option V := do
  assertAligned 8 data 64
  let t1 ← _mm512_load_pd m (data + 0)
  let val0 : M512d := t1
  let t2 ← _mm512_load_pd m (data + 8)
  let val1 : M512d := t2
  some ⟨val0, val1⟩

/-- `store_aligned` (detail/short_vec_mic_double_16.hpp:179-185) -/
def store_aligned (E : FEnv) (self : V) (data : Int) : Option (Writes 64) := do
  assertAligned 8 data 64
  let w1 ← _mm512_store_pd (data + 0) self.val0
  let w2 ← _mm512_store_pd (data + 8) self.val1
  some (w1 ++ w2)

/-- `store_nt` (detail/short_vec_mic_double_16.hpp:187-193) -/
def store_nt (E : FEnv) (self : V) (data : Int) : Option (Writes 64) := do
  assertAligned 8 data 64
  let w1 ← _mm512_storenr_pd (data + 0) self.val0
  let w2 ← _mm512_storenr_pd (data + 8) self.val1
  some (w1 ++ w2)

/-- `gather` (detail/short_vec_mic_double_16.hpp:195-204) -/
def gather (E : FEnv) (m : Mem 64) (mo : Mem 32) (self : V) (ptr : Int) (offsets : Int) : Option V := do
  assertAligned 4 offsets 64
  let indices : M512i := (uninit : M512i)
  let t1 ← _mm512_load_epi32 mo offsets
  let indices : M512i := t1
  let t2 ← _mm512_i32logather_pd m indices ptr 8
  let val0 : M512d := t2
  let indices : M512i := _mm512_permute4f128_epi32 indices _MM_PERM_BADC
  let t3 ← _mm512_i32logather_pd m indices ptr 8
  let val1 : M512d := t3
  some ⟨val0, val1⟩

/-- `scatter` (detail/short_vec_mic_double_16.hpp:206-215) -/
def scatter (E : FEnv) (mo : Mem 32) (self : V) (ptr : Int) (offsets : Int) : Option (Writes 64) := do
  assertAligned 4 offsets 64
  let indices : M512i := (uninit : M512i)
  let t1 ← _mm512_load_epi32 mo offsets
  let indices : M512i := t1
  let w2 ← _mm512_i32loscatter_pd ptr indices self.val0 8
  let indices : M512i := _mm512_permute4f128_epi32 indices _MM_PERM_BADC
  let w3 ← _mm512_i32loscatter_pd ptr indices self.val1 8
  some (w2 ++ w3)

/-- `operator<<`, free function (detail/short_vec_mic_double_16.hpp:221-225) -/
def opStore (E : FEnv) (data : Int) (vec : V) : Option (Writes 64) := do
  let w1 ← store E vec data
  some w1

/-- `sqrt`, free function (detail/short_vec_mic_double_16.hpp:231-235) -/
def sqrtFn (E : FEnv) (vec : V) : V := sqrt E vec

/-- `operator<<`, free function (detail/short_vec_mic_double_16.hpp:237-251) -/
def print (E : FEnv) (vec : V) : List (Out 64) :=
  [.s "[", .v vec.val0.x0.x0.x0, .s ", ", .v vec.val0.x0.x0.x1, .s ", ", .v vec.val0.x0.x1.x0, .s ", ", .v vec.val0.x0.x1.x1,
      .s ", ", .v vec.val0.x1.x0.x0, .s ", ", .v vec.val0.x1.x0.x1, .s ", ", .v vec.val0.x1.x1.x0, .s ", ", .v
      vec.val0.x1.x1.x1, .s ", ", .v vec.val1.x0.x0.x0, .s ", ", .v vec.val1.x0.x0.x1, .s ", ", .v vec.val1.x0.x1.x0, .s ", ",
      .v vec.val1.x0.x1.x1, .s ", ", .v vec.val1.x1.x0.x0, .s ", ", .v vec.val1.x1.x0.x1, .s ", ", .v vec.val1.x1.x1.x0, .s
      ", ", .v vec.val1.x1.x1.x1, .s "]"]

end LFA.SV.MicDouble16

namespace LFA.SV.MicDouble32

/-- members of `short_vec<double, 32>` (detail/short_vec_mic_double_32.hpp:47) -/
structure V where
  val0 : M512d
  val1 : M512d
  val2 : M512d
  val3 : M512d

/-- lanes, from low to high -/
def V.lanes (v : V) : List (BitVec 64) := SV.lanes v.val0 ++ (SV.lanes v.val1 ++ (SV.lanes v.val2 ++ (SV.lanes v.val3)))

/-- constructor (detail/short_vec_mic_double_32.hpp:58-64) -/
def bcast (E : FEnv) (data : BitVec 64) : V :=
  ⟨_mm512_set1_pd data, _mm512_set1_pd data, _mm512_set1_pd data, _mm512_set1_pd data⟩

/-- constructor (detail/short_vec_mic_double_32.hpp:72-82) -/
def ofRegs (E : FEnv) (val1 : M512d) (val2 : M512d) (val3 : M512d) (val4 : M512d) : V := ⟨val1, val2, val3, val4⟩

/-- `load` (detail/short_vec_mic_double_32.hpp:179-190) -/
def load (E : FEnv) (m : Mem 64) (self : V) (data : Int) : Option V := do
  let t1 ← _mm512_loadunpacklo_pd m self.val0 (data + 0)
  let val0 : M512d := t1
  let t2 ← _mm512_loadunpackhi_pd m val0 (data + 8)
  let val0 : M512d := t2
  let t3 ← _mm512_loadunpacklo_pd m self.val1 (data + 8)
  let val1 : M512d := t3
  let t4 ← _mm512_loadunpackhi_pd m val1 (data + 16)
  let val1 : M512d := t4
  let t5 ← _mm512_loadunpacklo_pd m self.val2 (data + 16)
  let val2 : M512d := t5
  let t6 ← _mm512_loadunpackhi_pd m val2 (data + 24)
  let val2 : M512d := t6
  let t7 ← _mm512_loadunpacklo_pd m self.val3 (data + 24)
  let val3 : M512d := t7
  let t8 ← _mm512_loadunpackhi_pd m val3 (data + 32)
  let val3 : M512d := t8
  some ⟨val0, val1, val2, val3⟩

/-- `store` (detail/short_vec_mic_double_32.hpp:202-213) -/
def store (E : FEnv) (self : V) (data : Int) : Option (Writes 64) := do
  let w1 ← _mm512_packstorelo_pd (data + 0) self.val0
  let w2 ← _mm512_packstorehi_pd (data + 8) self.val0
  let w3 ← _mm512_packstorelo_pd (data + 8) self.val1
  let w4 ← _mm512_packstorehi_pd (data + 16) self.val1
  let w5 ← _mm512_packstorelo_pd (data + 16) self.val2
  let w6 ← _mm512_packstorehi_pd (data + 24) self.val2
  let w7 ← _mm512_packstorelo_pd (data + 24) self.val3
  let w8 ← _mm512_packstorehi_pd (data + 32) self.val3
  some (w1 ++ w2 ++ w3 ++ w4 ++ w5 ++ w6 ++ w7 ++ w8)

/-- `sqrt` (detail/short_vec_mic_double_32.hpp:169-177) -/
def sqrt (E : FEnv) (self : V) : V :=
  ofRegs E (_mm512_sqrt_pd E self.val0) (_mm512_sqrt_pd E self.val1) (_mm512_sqrt_pd E self.val2) (_mm512_sqrt_pd E self.val3)

/-- constructor (detail/short_vec_mic_double_32.hpp:66-70) -/
def ofPtr (E : FEnv) (m : Mem 64) (data : Int) : Option V := do
  let v1 ← load E m ⟨(uninit : M512d), (uninit : M512d), (uninit : M512d), (uninit : M512d)⟩ data
  some ⟨v1.val0, v1.val1, v1.val2, v1.val3⟩

/-- constructor (detail/short_vec_mic_double_32.hpp:85-90) -/
def ofList (E : FEnv) (m : Mem 64) (il : Int) : Option V := do
  let v1 ← load E m ⟨(uninit : M512d), (uninit : M512d), (uninit : M512d), (uninit : M512d)⟩ il
  some ⟨v1.val0, v1.val1, v1.val2, v1.val3⟩

/-- `operator-=` (detail/short_vec_mic_double_32.hpp:93-100) -/
def opSubAssign (E : FEnv) (self : V) (other : V) : V :=
  let val0 : M512d := _mm512_sub_pd E self.val0 other.val0
  let val1 : M512d := _mm512_sub_pd E self.val1 other.val1
  let val2 : M512d := _mm512_sub_pd E self.val2 other.val2
  let val3 : M512d := _mm512_sub_pd E self.val3 other.val3
  ⟨val0, val1, val2, val3⟩

/-- `operator-` (detail/short_vec_mic_double_32.hpp:102-110) -/
def opSub (E : FEnv) (self : V) (other : V) : V :=
  ofRegs E (_mm512_sub_pd E self.val0 other.val0) (_mm512_sub_pd E self.val1 other.val1) (_mm512_sub_pd E self.val2 other.val2)
      (_mm512_sub_pd E self.val3 other.val3)

/-- `operator+=` (detail/short_vec_mic_double_32.hpp:112-119) -/
def opAddAssign (E : FEnv) (self : V) (other : V) : V :=
  let val0 : M512d := _mm512_add_pd E self.val0 other.val0
  let val1 : M512d := _mm512_add_pd E self.val1 other.val1
  let val2 : M512d := _mm512_add_pd E self.val2 other.val2
  let val3 : M512d := _mm512_add_pd E self.val3 other.val3
  ⟨val0, val1, val2, val3⟩

/-- `operator+` (detail/short_vec_mic_double_32.hpp:121-129) -/
def opAdd (E : FEnv) (self : V) (other : V) : V :=
  ofRegs E (_mm512_add_pd E self.val0 other.val0) (_mm512_add_pd E self.val1 other.val1) (_mm512_add_pd E self.val2 other.val2)
      (_mm512_add_pd E self.val3 other.val3)

/-- `operator*=` (detail/short_vec_mic_double_32.hpp:131-138) -/
def opMulAssign (E : FEnv) (self : V) (other : V) : V :=
  let val0 : M512d := _mm512_mul_pd E self.val0 other.val0
  let val1 : M512d := _mm512_mul_pd E self.val1 other.val1
  let val2 : M512d := _mm512_mul_pd E self.val2 other.val2
  let val3 : M512d := _mm512_mul_pd E self.val3 other.val3
  ⟨val0, val1, val2, val3⟩

/-- `operator*` (detail/short_vec_mic_double_32.hpp:140-148) -/
def opMul (E : FEnv) (self : V) (other : V) : V :=
  ofRegs E (_mm512_mul_pd E self.val0 other.val0) (_mm512_mul_pd E self.val1 other.val1) (_mm512_mul_pd E self.val2 other.val2)
      (_mm512_mul_pd E self.val3 other.val3)

/-- `operator/=` (detail/short_vec_mic_double_32.hpp:150-157) -/
def opDivAssign (E : FEnv) (self : V) (other : V) : V :=
  let val0 : M512d := _mm512_div_pd E self.val0 other.val0
  let val1 : M512d := _mm512_div_pd E self.val1 other.val1
  let val2 : M512d := _mm512_div_pd E self.val2 other.val2
  let val3 : M512d := _mm512_div_pd E self.val3 other.val3
  ⟨val0, val1, val2, val3⟩

/-- `operator/` (detail/short_vec_mic_double_32.hpp:159-167) -/
def opDiv (E : FEnv) (self : V) (other : V) : V :=
  ofRegs E (_mm512_div_pd E self.val0 other.val0) (_mm512_div_pd E self.val1 other.val1) (_mm512_div_pd E self.val2 other.val2)
      (_mm512_div_pd E self.val3 other.val3)

/-- `load_aligned` (detail/short_vec_mic_double_32.hpp:192-200) -/
def load_aligned (E : FEnv) (m : Mem 64) (self : V) (data : Int) : Option V := do
  assertAligned 8 data 64
  let t1 ← _mm512_load_pd m (data + 0)
  let val0 : M512d := t1
  let t2 ← _mm512_load_pd m (data + 8)
  let val1 : M512d := t2
  let t3 ← _mm512_load_pd m (data + 16)
  let val2 : M512d := t3
  let t4 ← _mm512_load_pd m (data + 24)
  let val3 : M512d := t4
  some ⟨val0, val1, val2, val3⟩

/-- `store_aligned` (detail/short_vec_mic_double_32.hpp:215-223) -/
def store_aligned (E : FEnv) (self : V) (data : Int) : Option (Writes 64) := do
  assertAligned 8 data 64
  let w1 ← _mm512_store_pd (data + 0) self.val0
  let w2 ← _mm512_store_pd (data + 8) self.val1
  let w3 ← _mm512_store_pd (data + 16) self.val2
  let w4 ← _mm512_store_pd (data + 24) self.val3
  some (w1 ++ w2 ++ w3 ++ w4)

/-- `store_nt` (detail/short_vec_mic_double_32.hpp:225-233) -/
def store_nt (E : FEnv) (self : V) (data : Int) : Option (Writes 64) := do
  assertAligned 8 data 64
  let w1 ← _mm512_storenr_pd (data + 0) self.val0
  let w2 ← _mm512_storenr_pd (data + 8) self.val1
  let w3 ← _mm512_storenr_pd (data + 16) self.val2
  let w4 ← _mm512_storenr_pd (data + 24) self.val3
  some (w1 ++ w2 ++ w3 ++ w4)

/-- `gather` (detail/short_vec_mic_double_32.hpp:235-248) -/
def gather (E : FEnv) (m : Mem 64) (mo : Mem 32) (self : V) (ptr : Int) (offsets : Int) : Option V := do
  assertAligned 4 offsets 64
  let indices : M512i := (uninit : M512i)
  let t1 ← _mm512_load_epi32 mo (offsets + 0)
  let indices : M512i := t1
  let t2 ← _mm512_i32logather_pd m indices ptr 8
  let val0 : M512d := t2
  let indices : M512i := _mm512_permute4f128_epi32 indices _MM_PERM_BADC
  let t3 ← _mm512_i32logather_pd m indices ptr 8
  let val1 : M512d := t3
  let t4 ← _mm512_load_epi32 mo (offsets + 16)
  let indices : M512i := t4
  let t5 ← _mm512_i32logather_pd m indices ptr 8
  let val2 : M512d := t5
  let indices : M512i := _mm512_permute4f128_epi32 indices _MM_PERM_BADC
  let t6 ← _mm512_i32logather_pd m indices ptr 8
  let val3 : M512d := t6
  some ⟨val0, val1, val2, val3⟩

/-- `scatter` (detail/short_vec_mic_double_32.hpp:250-263) -/
def scatter (E : FEnv) (mo : Mem 32) (self : V) (ptr : Int) (offsets : Int) : Option (Writes 64) := do
  assertAligned 4 offsets 64
  let indices : M512i := (uninit : M512i)
  let t1 ← _mm512_load_epi32 mo (offsets + 0)
  let indices : M512i := t1
  let w2 ← _mm512_i32loscatter_pd ptr indices self.val0 8
  let indices : M512i := _mm512_permute4f128_epi32 indices _MM_PERM_BADC
  let w3 ← _mm512_i32loscatter_pd ptr indices self.val1 8
  let t4 ← _mm512_load_epi32 mo (offsets + 16)
  let indices : M512i := t4
  let w5 ← _mm512_i32loscatter_pd ptr indices self.val2 8
  let indices : M512i := _mm512_permute4f128_epi32 indices _MM_PERM_BADC
  let w6 ← _mm512_i32loscatter_pd ptr indices self.val3 8
  some (w2 ++ w3 ++ w5 ++ w6)

/-- `operator<<`, free function (detail/short_vec_mic_double_32.hpp:269-273) -/
def opStore (E : FEnv) (data : Int) (vec : V) : Option (Writes 64) := do
  let w1 ← store E vec data
  some w1

/-- `sqrt`, free function (detail/short_vec_mic_double_32.hpp:279-283) -/
def sqrtFn (E : FEnv) (vec : V) : V := sqrt E vec

/-- `operator<<`, free function (detail/short_vec_mic_double_32.hpp:285-305) -/
def print (E : FEnv) (vec : V) : List (Out 64) :=
  [.s "[", .v vec.val0.x0.x0.x0, .s ", ", .v vec.val0.x0.x0.x1, .s ", ", .v vec.val0.x0.x1.x0, .s ", ", .v vec.val0.x0.x1.x1,
      .s ", ", .v vec.val0.x1.x0.x0, .s ", ", .v vec.val0.x1.x0.x1, .s ", ", .v vec.val0.x1.x1.x0, .s ", ", .v
      vec.val0.x1.x1.x1, .s ", ", .v vec.val1.x0.x0.x0, .s ", ", .v vec.val1.x0.x0.x1, .s ", ", .v vec.val1.x0.x1.x0, .s ", ",
      .v vec.val1.x0.x1.x1, .s ", ", .v vec.val1.x1.x0.x0, .s ", ", .v vec.val1.x1.x0.x1, .s ", ", .v vec.val1.x1.x1.x0, .s
      ", ", .v vec.val1.x1.x1.x1, .s ", ", .v vec.val2.x0.x0.x0, .s ", ", .v vec.val2.x0.x0.x1, .s ", ", .v vec.val2.x0.x1.x0,
      .s ", ", .v vec.val2.x0.x1.x1, .s ", ", .v vec.val2.x1.x0.x0, .s ", ", .v vec.val2.x1.x0.x1, .s ", ", .v
      vec.val2.x1.x1.x0, .s ", ", .v vec.val2.x1.x1.x1, .s ", ", .v vec.val3.x0.x0.x0, .s ", ", .v vec.val3.x0.x0.x1, .s ", ",
      .v vec.val3.x0.x1.x0, .s ", ", .v vec.val3.x0.x1.x1, .s ", ", .v vec.val3.x1.x0.x0, .s ", ", .v vec.val3.x1.x0.x1, .s
      ", ", .v vec.val3.x1.x1.x0, .s ", ", .v vec.val3.x1.x1.x1, .s "]"]

end LFA.SV.MicDouble32
