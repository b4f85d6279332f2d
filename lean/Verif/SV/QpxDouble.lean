/-
  Generated by tools/sv_gen.py from detail/short_vec_qpx_double_*.hpp.
-/
import Verif.SV.Base
set_option linter.unusedVariables false
set_option autoImplicit false

namespace LFA.SV.QpxDouble4

/-- members of `short_vec<double, 4>` (detail/short_vec_qpx_double_4.hpp:48) -/
structure V where
  val : V4d

/-- lanes, from low to high -/
def V.lanes (v : V) : List (BitVec 64) := SV.lanes v.val

/-- `sqrt_reference<double, 4>`: keeps the vector until the square root is needed -/
structure SqrtRef where
  vec : V

/-- constructor (detail/short_vec_qpx_double_4.hpp:52-55) -/
def bcast (E : FEnv) (data : BitVec 64) : V := ⟨vec_splats data⟩

/-- constructor (detail/short_vec_qpx_double_4.hpp:62-65) -/
def ofRegs (E : FEnv) (val : V4d) : V := ⟨val⟩

/-- `load` (detail/short_vec_qpx_double_4.hpp:144-148) -/
def load (E : FEnv) (m : Mem 64) (self : V) (data : Int) : Option V := do
  let t1 ← vec_ld m 0 data
  let val : V4d := t1
  some ⟨val⟩

/-- `store` (detail/short_vec_qpx_double_4.hpp:157-161) -/
def store (E : FEnv) (self : V) (data : Int) : Option (Writes 64) := do
  let w1 ← vec_st self.val 0 data
  some w1

/-- `sqrt` (detail/short_vec_qpx_double_4.hpp:137-142) -/
def sqrt (E : FEnv) (self : V) : V := ofRegs E (vec_swsqrt E self.val)

/-- constructor of `sqrt_reference` (detail/short_vec_qpx_double_4.hpp:224-227) -/
def ofSqrt (E : FEnv) (other : SqrtRef) : V := ⟨vec_swsqrt E other.vec.val⟩

/-- constructor (detail/short_vec_qpx_double_4.hpp:57-60) -/
def ofPtr (E : FEnv) (m : Mem 64) (data : Int) : Option V := do
  let t1 ← vec_ld m 0 data
  some ⟨t1⟩

/-- constructor (detail/short_vec_qpx_double_4.hpp:68-73) -/
def ofList (E : FEnv) (m : Mem 64) (il : Int) : Option V := do
  let v1 ← load E m ⟨(uninit : V4d)⟩ il
  some ⟨v1.val⟩

/-- `operator-=` (detail/short_vec_qpx_double_4.hpp:79-83) -/
def opSubAssign (E : FEnv) (self : V) (other : V) : V :=
  let val : V4d := vec_sub E self.val other.val
  ⟨val⟩

/-- `operator-` (detail/short_vec_qpx_double_4.hpp:85-90) -/
def opSub (E : FEnv) (self : V) (other : V) : V := ofRegs E (vec_sub E self.val other.val)

/-- `operator+=` (detail/short_vec_qpx_double_4.hpp:92-96) -/
def opAddAssign (E : FEnv) (self : V) (other : V) : V :=
  let val : V4d := vec_add E self.val other.val
  ⟨val⟩

/-- `operator+` (detail/short_vec_qpx_double_4.hpp:98-103) -/
def opAdd (E : FEnv) (self : V) (other : V) : V := ofRegs E (vec_add E self.val other.val)

/-- `operator*=` (detail/short_vec_qpx_double_4.hpp:105-109) -/
def opMulAssign (E : FEnv) (self : V) (other : V) : V :=
  let val : V4d := vec_add E self.val other.val
  ⟨val⟩

/-- `operator*` (detail/short_vec_qpx_double_4.hpp:111-116) -/
def opMul (E : FEnv) (self : V) (other : V) : V := ofRegs E (vec_mul E self.val other.val)

/-- `operator/=` (detail/short_vec_qpx_double_4.hpp:121-125) -/
def opDivAssign (E : FEnv) (self : V) (other : V) : V :=
  let val : V4d := vec_swdiv_nochk E self.val other.val
  ⟨val⟩

/-- `operator/` (detail/short_vec_qpx_double_4.hpp:127-132) -/
def opDiv (E : FEnv) (self : V) (other : V) : V := ofRegs E (vec_swdiv_nochk E self.val other.val)

/-- `load_aligned` (detail/short_vec_qpx_double_4.hpp:150-155) -/
def load_aligned (E : FEnv) (m : Mem 64) (self : V) (data : Int) : Option V := do
  assertAligned 8 data 32
  let t1 ← vec_lda m 0 data
  let val : V4d := t1
  some ⟨val⟩

/-- `store_aligned` (detail/short_vec_qpx_double_4.hpp:163-168) -/
def store_aligned (E : FEnv) (self : V) (data : Int) : Option (Writes 64) := do
  assertAligned 8 data 32
  let w1 ← vec_sta self.val 0 data
  some w1

/-- `store_nt` (detail/short_vec_qpx_double_4.hpp:170-174) -/
def store_nt (E : FEnv) (self : V) (data : Int) : Option (Writes 64) := do
  let w1 ← store E self data
  some w1

/-- `gather` (detail/short_vec_qpx_double_4.hpp:176-184) -/
def gather (E : FEnv) (m : Mem 64) (mo : Mem 32) (self : V) (ptr : Int) (offsets : Int) : Option V := do
  let t1 ← mo (offsets + 0)
  let t2 ← m (ptr + t1.toInt)
  let val : V4d := vec_insert t2 self.val 0
  let t3 ← mo (offsets + 1)
  let t4 ← m (ptr + t3.toInt)
  let val : V4d := vec_insert t4 val 1
  let t5 ← mo (offsets + 2)
  let t6 ← m (ptr + t5.toInt)
  let val : V4d := vec_insert t6 val 2
  let t7 ← mo (offsets + 3)
  let t8 ← m (ptr + t7.toInt)
  let val : V4d := vec_insert t8 val 3
  some ⟨val⟩

/-- `scatter` (detail/short_vec_qpx_double_4.hpp:186-193) -/
def scatter (E : FEnv) (mo : Mem 32) (self : V) (ptr : Int) (offsets : Int) : Option (Writes 64) := do
  let t1 ← mo (offsets + 0)
  let t2 ← mo (offsets + 1)
  let t3 ← mo (offsets + 2)
  let t4 ← mo (offsets + 3)
  some ([(ptr + t1.toInt, vec_extract self.val 0)] ++ [(ptr + t2.toInt, vec_extract self.val 1)] ++ [(ptr + t3.toInt,
      vec_extract self.val 2)] ++ [(ptr + t4.toInt, vec_extract self.val 3)])

/-- `operator<<`, free function (detail/short_vec_qpx_double_4.hpp:203-207) -/
def opStore (E : FEnv) (data : Int) (vec : V) : Option (Writes 64) := do
  let w1 ← store E vec data
  some w1

/-- `operator/=` of `sqrt_reference` (detail/short_vec_qpx_double_4.hpp:229-233) -/
def opDivAssignSqrt (E : FEnv) (self : V) (other : SqrtRef) : V :=
  let val : V4d := vec_mul E self.val (vec_rsqrte E other.vec.val)
  ⟨val⟩

/-- `operator/` of `sqrt_reference` (detail/short_vec_qpx_double_4.hpp:235-239) -/
def opDivSqrt (E : FEnv) (self : V) (other : SqrtRef) : V :=
  ofRegs E (vec_mul E self.val (vec_rsqrte E other.vec.val))

/-- `sqrt`, free function (detail/short_vec_qpx_double_4.hpp:241-245) -/
def sqrtFn (E : FEnv) (vec : V) : SqrtRef := SqrtRef.mk vec

/-- `operator<<`, free function (detail/short_vec_qpx_double_4.hpp:247-259) -/
def print (E : FEnv) (vec : V) : List (Out 64) :=
  [.s "[", .v vec.val.x0, .s ", ", .v vec.val.x1, .s ", ", .v vec.val.x2, .s ", ", .v vec.val.x3, .s "]"]

end LFA.SV.QpxDouble4

namespace LFA.SV.QpxDouble8

/-- members of `short_vec<double, 8>` (detail/short_vec_qpx_double_8.hpp:48) -/
structure V where
  val0 : V4d
  val1 : V4d

/-- lanes, from low to high -/
def V.lanes (v : V) : List (BitVec 64) := SV.lanes v.val0 ++ (SV.lanes v.val1)

/-- `sqrt_reference<double, 8>`: keeps the vector until the square root is needed -/
structure SqrtRef where
  vec : V

/-- constructor (detail/short_vec_qpx_double_8.hpp:52-56) -/
def bcast (E : FEnv) (data : BitVec 64) : V := ⟨vec_splats data, vec_splats data⟩

/-- constructor (detail/short_vec_qpx_double_8.hpp:64-68) -/
def ofRegs (E : FEnv) (val1 : V4d) (val2 : V4d) : V := ⟨val1, val2⟩

/-- `load` (detail/short_vec_qpx_double_8.hpp:156-161) -/
def load (E : FEnv) (m : Mem 64) (self : V) (data : Int) : Option V := do
  let t1 ← vec_ld m 0 (data + 0)
  let val0 : V4d := t1
  let t2 ← vec_ld m 0 (data + 4)
  let val1 : V4d := t2
  some ⟨val0, val1⟩

/-- `store` (detail/short_vec_qpx_double_8.hpp:171-176) -/
def store (E : FEnv) (self : V) (data : Int) : Option (Writes 64) := do
  let w1 ← vec_st self.val0 0 (data + 0)
  let w2 ← vec_st self.val1 0 (data + 4)
  some (w1 ++ w2)

/-- `sqrt` (detail/short_vec_qpx_double_8.hpp:148-154) -/
def sqrt (E : FEnv) (self : V) : V := ofRegs E (vec_swsqrt E self.val0) (vec_swsqrt E self.val1)

/-- constructor of `sqrt_reference` (detail/short_vec_qpx_double_8.hpp:250-254) -/
def ofSqrt (E : FEnv) (other : SqrtRef) : V := ⟨vec_swsqrt E other.vec.val0, vec_swsqrt E other.vec.val1⟩

/-- constructor (detail/short_vec_qpx_double_8.hpp:58-62) -/
def ofPtr (E : FEnv) (m : Mem 64) (data : Int) : Option V := do
  let v1 ← load E m ⟨(uninit : V4d), (uninit : V4d)⟩ data
  some ⟨v1.val0, v1.val1⟩

/-- constructor (detail/short_vec_qpx_double_8.hpp:71-76) -/
def ofList (E : FEnv) (m : Mem 64) (il : Int) : Option V := do
  let v1 ← load E m ⟨(uninit : V4d), (uninit : V4d)⟩ il
  some ⟨v1.val0, v1.val1⟩

/-- `operator-=` (detail/short_vec_qpx_double_8.hpp:82-87) -/
def opSubAssign (E : FEnv) (self : V) (other : V) : V :=
  let val0 : V4d := vec_sub E self.val0 other.val0
  let val1 : V4d := vec_sub E self.val1 other.val1
  ⟨val0, val1⟩

/-- `operator-` (detail/short_vec_qpx_double_8.hpp:89-95) -/
def opSub (E : FEnv) (self : V) (other : V) : V :=
  ofRegs E (vec_sub E self.val0 other.val0) (vec_sub E self.val1 other.val1)

/-- `operator+=` (detail/short_vec_qpx_double_8.hpp:97-102) -/
def opAddAssign (E : FEnv) (self : V) (other : V) : V :=
  let val0 : V4d := vec_add E self.val0 other.val0
  let val1 : V4d := vec_add E self.val1 other.val1
  ⟨val0, val1⟩

/-- `operator+` (detail/short_vec_qpx_double_8.hpp:104-110) -/
def opAdd (E : FEnv) (self : V) (other : V) : V :=
  ofRegs E (vec_add E self.val0 other.val0) (vec_add E self.val1 other.val1)

/-- `operator*=` (detail/short_vec_qpx_double_8.hpp:112-117) -/
def opMulAssign (E : FEnv) (self : V) (other : V) : V :=
  let val0 : V4d := vec_add E self.val0 other.val0
  let val1 : V4d := vec_add E self.val1 other.val1
  ⟨val0, val1⟩

/-- `operator*` (detail/short_vec_qpx_double_8.hpp:119-125) -/
def opMul (E : FEnv) (self : V) (other : V) : V :=
  ofRegs E (vec_mul E self.val0 other.val0) (vec_mul E self.val1 other.val1)

/-- `operator/=` (detail/short_vec_qpx_double_8.hpp:130-135) -/
def opDivAssign (E : FEnv) (self : V) (other : V) : V :=
  let val0 : V4d := vec_swdiv_nochk E self.val0 other.val0
  let val1 : V4d := vec_swdiv_nochk E self.val1 other.val1
  ⟨val0, val1⟩

/-- `operator/` (detail/short_vec_qpx_double_8.hpp:137-143) -/
def opDiv (E : FEnv) (self : V) (other : V) : V :=
  ofRegs E (vec_swdiv_nochk E self.val0 other.val0) (vec_swdiv_nochk E self.val1 other.val1)

/-- `load_aligned` (detail/short_vec_qpx_double_8.hpp:163-169) -/
def load_aligned (E : FEnv) (m : Mem 64) (self : V) (data : Int) : Option V := do
  assertAligned 8 data 32
  let t1 ← vec_lda m 0 (data + 0)
  let val0 : V4d := t1
  let t2 ← vec_lda m 0 (data + 4)
  let val1 : V4d := t2
  some ⟨val0, val1⟩

/-- `store_aligned` (detail/short_vec_qpx_double_8.hpp:178-184) -/
def store_aligned (E : FEnv) (self : V) (data : Int) : Option (Writes 64) := do
  assertAligned 8 data 32
  let w1 ← vec_sta self.val0 0 (data + 0)
  let w2 ← vec_sta self.val1 0 (data + 4)
  some (w1 ++ w2)

/-- `store_nt` (detail/short_vec_qpx_double_8.hpp:186-190) -/
def store_nt (E : FEnv) (self : V) (data : Int) : Option (Writes 64) := do
  let w1 ← store E self data
  some w1

/-- `gather` (detail/short_vec_qpx_double_8.hpp:192-205) -/
def gather (E : FEnv) (m : Mem 64) (mo : Mem 32) (self : V) (ptr : Int) (offsets : Int) : Option V := do
  let t1 ← mo (offsets + 0)
  let t2 ← m (ptr + t1.toInt)
  let val0 : V4d := vec_insert t2 self.val0 0
  let t3 ← mo (offsets + 1)
  let t4 ← m (ptr + t3.toInt)
  let val0 : V4d := vec_insert t4 val0 1
  let t5 ← mo (offsets + 2)
  let t6 ← m (ptr + t5.toInt)
  let val0 : V4d := vec_insert t6 val0 2
  let t7 ← mo (offsets + 3)
  let t8 ← m (ptr + t7.toInt)
  let val0 : V4d := vec_insert t8 val0 3
  let t9 ← mo (offsets + 4)
  let t10 ← m (ptr + t9.toInt)
  let val1 : V4d := vec_insert t10 self.val1 0
  let t11 ← mo (offsets + 5)
  let t12 ← m (ptr + t11.toInt)
  let val1 : V4d := vec_insert t12 val1 1
  let t13 ← mo (offsets + 6)
  let t14 ← m (ptr + t13.toInt)
  let val1 : V4d := vec_insert t14 val1 2
  let t15 ← mo (offsets + 7)
  let t16 ← m (ptr + t15.toInt)
  let val1 : V4d := vec_insert t16 val1 3
  some ⟨val0, val1⟩

/-- `scatter` (detail/short_vec_qpx_double_8.hpp:207-219) -/
def scatter (E : FEnv) (mo : Mem 32) (self : V) (ptr : Int) (offsets : Int) : Option (Writes 64) := do
  let t1 ← mo (offsets + 0)
  let t2 ← mo (offsets + 1)
  let t3 ← mo (offsets + 2)
  let t4 ← mo (offsets + 3)
  let t5 ← mo (offsets + 4)
  let t6 ← mo (offsets + 5)
  let t7 ← mo (offsets + 6)
  let t8 ← mo (offsets + 7)
  some ([(ptr + t1.toInt, vec_extract self.val0 0)] ++ [(ptr + t2.toInt, vec_extract self.val0 1)] ++ [(ptr + t3.toInt,
      vec_extract self.val0 2)] ++ [(ptr + t4.toInt, vec_extract self.val0 3)] ++ [(ptr + t5.toInt, vec_extract self.val1 0)]
      ++ [(ptr + t6.toInt, vec_extract self.val1 1)] ++ [(ptr + t7.toInt, vec_extract self.val1 2)] ++ [(ptr + t8.toInt,
      vec_extract self.val1 3)])

/-- `operator<<`, free function (detail/short_vec_qpx_double_8.hpp:229-233) -/
def opStore (E : FEnv) (data : Int) (vec : V) : Option (Writes 64) := do
  let w1 ← store E vec data
  some w1

/-- `operator/=` of `sqrt_reference` (detail/short_vec_qpx_double_8.hpp:256-261) -/
def opDivAssignSqrt (E : FEnv) (self : V) (other : SqrtRef) : V :=
  let val0 : V4d := vec_mul E self.val0 (vec_rsqrte E other.vec.val0)
  let val1 : V4d := vec_mul E self.val1 (vec_rsqrte E other.vec.val1)
  ⟨val0, val1⟩

/-- `operator/` of `sqrt_reference` (detail/short_vec_qpx_double_8.hpp:263-269) -/
def opDivSqrt (E : FEnv) (self : V) (other : SqrtRef) : V :=
  ofRegs E (vec_mul E self.val0 (vec_rsqrte E other.vec.val0)) (vec_mul E self.val1 (vec_rsqrte E other.vec.val1))

/-- `sqrt`, free function (detail/short_vec_qpx_double_8.hpp:271-275) -/
def sqrtFn (E : FEnv) (vec : V) : SqrtRef := SqrtRef.mk vec

/-- `operator<<`, free function (detail/short_vec_qpx_double_8.hpp:277-288) -/
def print (E : FEnv) (vec : V) : List (Out 64) :=
  [.s "[", .v vec.val0.x0, .s ", ", .v vec.val0.x1, .s ", ", .v vec.val0.x2, .s ", ", .v vec.val0.x3, .s ", ", .v vec.val1.x0,
      .s ", ", .v vec.val1.x1, .s ", ", .v vec.val1.x2, .s ", ", .v vec.val1.x3, .s "]"]

end LFA.SV.QpxDouble8

namespace LFA.SV.QpxDouble16

/-- members of `short_vec<double, 16>` (detail/short_vec_qpx_double_16.hpp:48)
    Not valid C++: the constructor at line 306 initialises elements of an array member one by one. The model describes the obvious intention. -/
structure V where
  val0 : V4d
  val1 : V4d
  val2 : V4d
  val3 : V4d

/-- lanes, from low to high -/
def V.lanes (v : V) : List (BitVec 64) := SV.lanes v.val0 ++ (SV.lanes v.val1 ++ (SV.lanes v.val2 ++ (SV.lanes v.val3)))

/-- `sqrt_reference<double, 16>`: keeps the vector until the square root is needed -/
structure SqrtRef where
  vec : V

/-- constructor (detail/short_vec_qpx_double_16.hpp:52-58) -/
def bcast (E : FEnv) (data : BitVec 64) : V := ⟨vec_splats data, vec_splats data, vec_splats data, vec_splats data⟩

/-- constructor (detail/short_vec_qpx_double_16.hpp:66-76) -/
def ofRegs (E : FEnv) (val1 : V4d) (val2 : V4d) (val3 : V4d) (val4 : V4d) : V := ⟨val1, val2, val3, val4⟩

/-- `load` (detail/short_vec_qpx_double_16.hpp:182-189) -/
def load (E : FEnv) (m : Mem 64) (self : V) (data : Int) : Option V := do
  let t1 ← vec_ld m 0 (data + 0)
  let val0 : V4d := t1
  let t2 ← vec_ld m 0 (data + 4)
  let val1 : V4d := t2
  let t3 ← vec_ld m 0 (data + 8)
  let val2 : V4d := t3
  let t4 ← vec_ld m 0 (data + 12)
  let val3 : V4d := t4
  some ⟨val0, val1, val2, val3⟩

/-- `store` (detail/short_vec_qpx_double_16.hpp:201-208) -/
def store (E : FEnv) (self : V) (data : Int) : Option (Writes 64) := do
  let w1 ← vec_st self.val0 0 (data + 0)
  let w2 ← vec_st self.val1 0 (data + 4)
  let w3 ← vec_st self.val2 0 (data + 8)
  let w4 ← vec_st self.val3 0 (data + 12)
  some (w1 ++ w2 ++ w3 ++ w4)

/-- `sqrt` (detail/short_vec_qpx_double_16.hpp:172-180) -/
def sqrt (E : FEnv) (self : V) : V :=
  ofRegs E (vec_swsqrt E self.val0) (vec_swsqrt E self.val1) (vec_swsqrt E self.val2) (vec_swsqrt E self.val3)

/-- constructor of `sqrt_reference` (detail/short_vec_qpx_double_16.hpp:304-310) -/
def ofSqrt (E : FEnv) (other : SqrtRef) : V :=
  ⟨vec_swsqrt E other.vec.val0, vec_swsqrt E other.vec.val1, vec_swsqrt E other.vec.val2, vec_swsqrt E other.vec.val3⟩

/-- constructor (detail/short_vec_qpx_double_16.hpp:60-64) -/
def ofPtr (E : FEnv) (m : Mem 64) (data : Int) : Option V := do
  let v1 ← load E m ⟨(uninit : V4d), (uninit : V4d), (uninit : V4d), (uninit : V4d)⟩ data
  some ⟨v1.val0, v1.val1, v1.val2, v1.val3⟩

/-- constructor (detail/short_vec_qpx_double_16.hpp:79-84) -/
def ofList (E : FEnv) (m : Mem 64) (il : Int) : Option V := do
  let v1 ← load E m ⟨(uninit : V4d), (uninit : V4d), (uninit : V4d), (uninit : V4d)⟩ il
  some ⟨v1.val0, v1.val1, v1.val2, v1.val3⟩

/-- `operator-=` (detail/short_vec_qpx_double_16.hpp:90-97) -/
def opSubAssign (E : FEnv) (self : V) (other : V) : V :=
  let val0 : V4d := vec_sub E self.val0 other.val0
  let val1 : V4d := vec_sub E self.val1 other.val1
  let val2 : V4d := vec_sub E self.val2 other.val2
  let val3 : V4d := vec_sub E self.val3 other.val3
  ⟨val0, val1, val2, val3⟩

/-- `operator-` (detail/short_vec_qpx_double_16.hpp:99-107) -/
def opSub (E : FEnv) (self : V) (other : V) : V :=
  ofRegs E (vec_sub E self.val0 other.val0) (vec_sub E self.val1 other.val1) (vec_sub E self.val2 other.val2) (vec_sub E
      self.val3 other.val3)

/-- `operator+=` (detail/short_vec_qpx_double_16.hpp:109-116) -/
def opAddAssign (E : FEnv) (self : V) (other : V) : V :=
  let val0 : V4d := vec_add E self.val0 other.val0
  let val1 : V4d := vec_add E self.val1 other.val1
  let val2 : V4d := vec_add E self.val2 other.val2
  let val3 : V4d := vec_add E self.val3 other.val3
  ⟨val0, val1, val2, val3⟩

/-- `operator+` (detail/short_vec_qpx_double_16.hpp:118-126) -/
def opAdd (E : FEnv) (self : V) (other : V) : V :=
  ofRegs E (vec_add E self.val0 other.val0) (vec_add E self.val1 other.val1) (vec_add E self.val2 other.val2) (vec_add E
      self.val3 other.val3)

/-- `operator*=` (detail/short_vec_qpx_double_16.hpp:128-135) -/
def opMulAssign (E : FEnv) (self : V) (other : V) : V :=
  let val0 : V4d := vec_add E self.val0 other.val0
  let val1 : V4d := vec_add E self.val1 other.val1
  let val2 : V4d := vec_add E self.val2 other.val2
  let val3 : V4d := vec_add E self.val3 other.val3
  ⟨val0, val1, val2, val3⟩

/-- `operator*` (detail/short_vec_qpx_double_16.hpp:137-145) -/
def opMul (E : FEnv) (self : V) (other : V) : V :=
  ofRegs E (vec_mul E self.val0 other.val0) (vec_mul E self.val1 other.val1) (vec_mul E self.val2 other.val2) (vec_mul E
      self.val3 other.val3)

/-- `operator/=` (detail/short_vec_qpx_double_16.hpp:150-157) -/
def opDivAssign (E : FEnv) (self : V) (other : V) : V :=
  let val0 : V4d := vec_swdiv_nochk E self.val0 other.val0
  let val1 : V4d := vec_swdiv_nochk E self.val1 other.val1
  let val2 : V4d := vec_swdiv_nochk E self.val2 other.val2
  let val3 : V4d := vec_swdiv_nochk E self.val3 other.val3
  ⟨val0, val1, val2, val3⟩

/-- `operator/` (detail/short_vec_qpx_double_16.hpp:159-167) -/
def opDiv (E : FEnv) (self : V) (other : V) : V :=
  ofRegs E (vec_swdiv_nochk E self.val0 other.val0) (vec_swdiv_nochk E self.val1 other.val1) (vec_swdiv_nochk E self.val2
      other.val2) (vec_swdiv_nochk E self.val3 other.val3)

/-- `load_aligned` (detail/short_vec_qpx_double_16.hpp:191-199) -/
def load_aligned (E : FEnv) (m : Mem 64) (self : V) (data : Int) : Option V := do
  assertAligned 8 data 32
  let t1 ← vec_lda m 0 (data + 0)
  let val0 : V4d := t1
  let t2 ← vec_lda m 0 (data + 4)
  let val1 : V4d := t2
  let t3 ← vec_lda m 0 (data + 8)
  let val2 : V4d := t3
  let t4 ← vec_lda m 0 (data + 12)
  let val3 : V4d := t4
  some ⟨val0, val1, val2, val3⟩

/-- `store_aligned` (detail/short_vec_qpx_double_16.hpp:210-218) -/
def store_aligned (E : FEnv) (self : V) (data : Int) : Option (Writes 64) := do
  assertAligned 8 data 32
  let w1 ← vec_sta self.val0 0 (data + 0)
  let w2 ← vec_sta self.val1 0 (data + 4)
  let w3 ← vec_sta self.val2 0 (data + 8)
  let w4 ← vec_sta self.val3 0 (data + 12)
  some (w1 ++ w2 ++ w3 ++ w4)

/-- `store_nt` (detail/short_vec_qpx_double_16.hpp:220-224) -/
def store_nt (E : FEnv) (self : V) (data : Int) : Option (Writes 64) := do
  let w1 ← store E self data
  some w1

/-- `gather` (detail/short_vec_qpx_double_16.hpp:226-249) -/
def gather (E : FEnv) (m : Mem 64) (mo : Mem 32) (self : V) (ptr : Int) (offsets : Int) : Option V := do
  let t1 ← mo (offsets + 0)
  let t2 ← m (ptr + t1.toInt)
  let val0 : V4d := vec_insert t2 self.val0 0
  let t3 ← mo (offsets + 1)
  let t4 ← m (ptr + t3.toInt)
  let val0 : V4d := vec_insert t4 val0 1
  let t5 ← mo (offsets + 2)
  let t6 ← m (ptr + t5.toInt)
  let val0 : V4d := vec_insert t6 val0 2
  let t7 ← mo (offsets + 3)
  let t8 ← m (ptr + t7.toInt)
  let val0 : V4d := vec_insert t8 val0 3
  let t9 ← mo (offsets + 4)
  let t10 ← m (ptr + t9.toInt)
  let val1 : V4d := vec_insert t10 self.val1 0
  let t11 ← mo (offsets + 5)
  let t12 ← m (ptr + t11.toInt)
  let val1 : V4d := vec_insert t12 val1 1
  let t13 ← mo (offsets + 6)
  let t14 ← m (ptr + t13.toInt)
  let val1 : V4d := vec_insert t14 val1 2
  let t15 ← mo (offsets + 7)
  let t16 ← m (ptr + t15.toInt)
  let val1 : V4d := vec_insert t16 val1 3
  let t17 ← mo (offsets + 8)
  let t18 ← m (ptr + t17.toInt)
  let val2 : V4d := vec_insert t18 self.val2 0
  let t19 ← mo (offsets + 9)
  let t20 ← m (ptr + t19.toInt)
  let val2 : V4d := vec_insert t20 val2 1
  let t21 ← mo (offsets + 10)
  let t22 ← m (ptr + t21.toInt)
  let val2 : V4d := vec_insert t22 val2 2
  let t23 ← mo (offsets + 11)
  let t24 ← m (ptr + t23.toInt)
  let val2 : V4d := vec_insert t24 val2 3
  let t25 ← mo (offsets + 12)
  let t26 ← m (ptr + t25.toInt)
  let val3 : V4d := vec_insert t26 self.val3 0
  let t27 ← mo (offsets + 13)
  let t28 ← m (ptr + t27.toInt)
  let val3 : V4d := vec_insert t28 val3 1
  let t29 ← mo (offsets + 14)
  let t30 ← m (ptr + t29.toInt)
  let val3 : V4d := vec_insert t30 val3 2
  let t31 ← mo (offsets + 15)
  let t32 ← m (ptr + t31.toInt)
  let val3 : V4d := vec_insert t32 val3 3
  some ⟨val0, val1, val2, val3⟩

/-- `scatter` (detail/short_vec_qpx_double_16.hpp:251-273) -/
def scatter (E : FEnv) (mo : Mem 32) (self : V) (ptr : Int) (offsets : Int) : Option (Writes 64) := do
  let t1 ← mo (offsets + 0)
  let t2 ← mo (offsets + 1)
  let t3 ← mo (offsets + 2)
  let t4 ← mo (offsets + 3)
  let t5 ← mo (offsets + 4)
  let t6 ← mo (offsets + 5)
  let t7 ← mo (offsets + 6)
  let t8 ← mo (offsets + 7)
  let t9 ← mo (offsets + 8)
  let t10 ← mo (offsets + 9)
  let t11 ← mo (offsets + 10)
  let t12 ← mo (offsets + 11)
  let t13 ← mo (offsets + 12)
  let t14 ← mo (offsets + 13)
  let t15 ← mo (offsets + 14)
  let t16 ← mo (offsets + 15)
  some ([(ptr + t1.toInt, vec_extract self.val0 0)] ++ [(ptr + t2.toInt, vec_extract self.val0 1)] ++ [(ptr + t3.toInt,
      vec_extract self.val0 2)] ++ [(ptr + t4.toInt, vec_extract self.val0 3)] ++ [(ptr + t5.toInt, vec_extract self.val1 0)]
      ++ [(ptr + t6.toInt, vec_extract self.val1 1)] ++ [(ptr + t7.toInt, vec_extract self.val1 2)] ++ [(ptr + t8.toInt,
      vec_extract self.val1 3)] ++ [(ptr + t9.toInt, vec_extract self.val2 0)] ++ [(ptr + t10.toInt, vec_extract self.val2 1)]
      ++ [(ptr + t11.toInt, vec_extract self.val2 2)] ++ [(ptr + t12.toInt, vec_extract self.val2 3)] ++ [(ptr + t13.toInt,
      vec_extract self.val3 0)] ++ [(ptr + t14.toInt, vec_extract self.val3 1)] ++ [(ptr + t15.toInt, vec_extract self.val3 2)]
      ++ [(ptr + t16.toInt, vec_extract self.val3 3)])

/-- `operator<<`, free function (detail/short_vec_qpx_double_16.hpp:283-287) -/
def opStore (E : FEnv) (data : Int) (vec : V) : Option (Writes 64) := do
  let w1 ← store E vec data
  some w1

/-- `operator/=` of `sqrt_reference` (detail/short_vec_qpx_double_16.hpp:312-319) -/
def opDivAssignSqrt (E : FEnv) (self : V) (other : SqrtRef) : V :=
  let val0 : V4d := vec_mul E self.val0 (vec_rsqrte E other.vec.val0)
  let val1 : V4d := vec_mul E self.val1 (vec_rsqrte E other.vec.val1)
  let val2 : V4d := vec_mul E self.val2 (vec_rsqrte E other.vec.val2)
  let val3 : V4d := vec_mul E self.val3 (vec_rsqrte E other.vec.val3)
  ⟨val0, val1, val2, val3⟩

/-- `operator/` of `sqrt_reference` (detail/short_vec_qpx_double_16.hpp:321-329) -/
def opDivSqrt (E : FEnv) (self : V) (other : SqrtRef) : V :=
  ofRegs E (vec_mul E self.val0 (vec_rsqrte E other.vec.val0)) (vec_mul E self.val1 (vec_rsqrte E other.vec.val1)) (vec_mul E
      self.val2 (vec_rsqrte E other.vec.val2)) (vec_mul E self.val3 (vec_rsqrte E other.vec.val3))

/-- `sqrt`, free function (detail/short_vec_qpx_double_16.hpp:331-335) -/
def sqrtFn (E : FEnv) (vec : V) : SqrtRef := SqrtRef.mk vec

/-- `operator<<`, free function (detail/short_vec_qpx_double_16.hpp:337-352) -/
def print (E : FEnv) (vec : V) : List (Out 64) :=
  [.s "[", .v vec.val0.x0, .s ", ", .v vec.val0.x1, .s ", ", .v vec.val0.x2, .s ", ", .v vec.val0.x3, .s ", ", .v vec.val1.x0,
      .s ", ", .v vec.val1.x1, .s ", ", .v vec.val1.x2, .s ", ", .v vec.val1.x3, .s ", ", .v vec.val2.x0, .s ", ", .v
      vec.val2.x1, .s ", ", .v vec.val2.x2, .s ", ", .v vec.val2.x3, .s ", ", .v vec.val3.x0, .s ", ", .v vec.val3.x1, .s ", ",
      .v vec.val3.x2, .s ", ", .v vec.val3.x3, .s "]"]

end LFA.SV.QpxDouble16

namespace LFA.SV.QpxDouble32

/-- members of `short_vec<double, 32>` (detail/short_vec_qpx_double_32.hpp:48)
    Not valid C++: the member at line 380 is declared several times. The model describes the obvious intention.
    Not valid C++: the constructor at line 417 initialises elements of an array member one by one. The model describes the obvious intention. -/
structure V where
  val0 : V4d
  val1 : V4d
  val2 : V4d
  val3 : V4d
  val4 : V4d
  val5 : V4d
  val6 : V4d
  val7 : V4d

/-- lanes, from low to high -/
def V.lanes (v : V) : List (BitVec 64) := SV.lanes v.val0 ++ (SV.lanes v.val1 ++ (SV.lanes v.val2 ++ (SV.lanes v.val3 ++
    (SV.lanes v.val4 ++ (SV.lanes v.val5 ++ (SV.lanes v.val6 ++ (SV.lanes v.val7)))))))

/-- `sqrt_reference<double, 32>`: keeps the vector until the square root is needed -/
structure SqrtRef where
  vec : V

/-- constructor (detail/short_vec_qpx_double_32.hpp:52-62) -/
def bcast (E : FEnv) (data : BitVec 64) : V :=
  ⟨vec_splats data, vec_splats data, vec_splats data, vec_splats data, vec_splats data, vec_splats data, vec_splats data,
      vec_splats data⟩

/-- constructor (detail/short_vec_qpx_double_32.hpp:70-88) -/
def ofRegs (E : FEnv) (val1 : V4d) (val2 : V4d) (val3 : V4d) (val4 : V4d) (val5 : V4d) (val6 : V4d) (val7 : V4d) (val8 : V4d) :
    V :=
  ⟨val1, val2, val3, val4, val5, val6, val7, val8⟩

/-- `load` (detail/short_vec_qpx_double_32.hpp:230-241) -/
def load (E : FEnv) (m : Mem 64) (self : V) (data : Int) : Option V := do
  let t1 ← vec_ld m 0 (data + 0)
  let val0 : V4d := t1
  let t2 ← vec_ld m 0 (data + 4)
  let val1 : V4d := t2
  let t3 ← vec_ld m 0 (data + 8)
  let val2 : V4d := t3
  let t4 ← vec_ld m 0 (data + 12)
  let val3 : V4d := t4
  let t5 ← vec_ld m 0 (data + 16)
  let val4 : V4d := t5
  let t6 ← vec_ld m 0 (data + 20)
  let val5 : V4d := t6
  let t7 ← vec_ld m 0 (data + 24)
  let val6 : V4d := t7
  let t8 ← vec_ld m 0 (data + 28)
  let val7 : V4d := t8
  some ⟨val0, val1, val2, val3, val4, val5, val6, val7⟩

/-- `store` (detail/short_vec_qpx_double_32.hpp:257-268) -/
def store (E : FEnv) (self : V) (data : Int) : Option (Writes 64) := do
  let w1 ← vec_st self.val0 0 (data + 0)
  let w2 ← vec_st self.val1 0 (data + 4)
  let w3 ← vec_st self.val2 0 (data + 8)
  let w4 ← vec_st self.val3 0 (data + 12)
  let w5 ← vec_st self.val4 0 (data + 16)
  let w6 ← vec_st self.val5 0 (data + 20)
  let w7 ← vec_st self.val6 0 (data + 24)
  let w8 ← vec_st self.val7 0 (data + 28)
  some (w1 ++ w2 ++ w3 ++ w4 ++ w5 ++ w6 ++ w7 ++ w8)

/-- `sqrt` (detail/short_vec_qpx_double_32.hpp:216-228) -/
def sqrt (E : FEnv) (self : V) : V :=
  ofRegs E (vec_swsqrt E self.val0) (vec_swsqrt E self.val1) (vec_swsqrt E self.val2) (vec_swsqrt E self.val3) (vec_swsqrt E
      self.val4) (vec_swsqrt E self.val5) (vec_swsqrt E self.val6) (vec_swsqrt E self.val7)

/-- constructor of `sqrt_reference` (detail/short_vec_qpx_double_32.hpp:415-425) -/
def ofSqrt (E : FEnv) (other : SqrtRef) : V :=
  ⟨vec_swsqrt E other.vec.val0, vec_swsqrt E other.vec.val1, vec_swsqrt E other.vec.val2, vec_swsqrt E other.vec.val3,
      vec_swsqrt E other.vec.val4, vec_swsqrt E other.vec.val5, vec_swsqrt E other.vec.val6, vec_swsqrt E other.vec.val7⟩

/-- constructor (detail/short_vec_qpx_double_32.hpp:64-68) -/
def ofPtr (E : FEnv) (m : Mem 64) (data : Int) : Option V := do
  let v1 ← load E m ⟨(uninit : V4d), (uninit : V4d), (uninit : V4d), (uninit : V4d), (uninit : V4d), (uninit : V4d), (uninit :
      V4d), (uninit : V4d)⟩ data
  some ⟨v1.val0, v1.val1, v1.val2, v1.val3, v1.val4, v1.val5, v1.val6, v1.val7⟩

/-- constructor (detail/short_vec_qpx_double_32.hpp:91-96) -/
def ofList (E : FEnv) (m : Mem 64) (il : Int) : Option V := do
  let v1 ← load E m ⟨(uninit : V4d), (uninit : V4d), (uninit : V4d), (uninit : V4d), (uninit : V4d), (uninit : V4d), (uninit :
      V4d), (uninit : V4d)⟩ il
  some ⟨v1.val0, v1.val1, v1.val2, v1.val3, v1.val4, v1.val5, v1.val6, v1.val7⟩

/-- `operator-=` (detail/short_vec_qpx_double_32.hpp:102-113) -/
def opSubAssign (E : FEnv) (self : V) (other : V) : V :=
  let val0 : V4d := vec_sub E self.val0 other.val0
  let val1 : V4d := vec_sub E self.val1 other.val1
  let val2 : V4d := vec_sub E self.val2 other.val2
  let val3 : V4d := vec_sub E self.val3 other.val3
  let val4 : V4d := vec_sub E self.val4 other.val4
  let val5 : V4d := vec_sub E self.val5 other.val5
  let val6 : V4d := vec_sub E self.val6 other.val6
  let val7 : V4d := vec_sub E self.val7 other.val7
  ⟨val0, val1, val2, val3, val4, val5, val6, val7⟩

/-- `operator-` (detail/short_vec_qpx_double_32.hpp:115-127) -/
def opSub (E : FEnv) (self : V) (other : V) : V :=
  ofRegs E (vec_sub E self.val0 other.val0) (vec_sub E self.val1 other.val1) (vec_sub E self.val2 other.val2) (vec_sub E
      self.val3 other.val3) (vec_sub E self.val4 other.val4) (vec_sub E self.val5 other.val5) (vec_sub E self.val6 other.val6)
      (vec_sub E self.val7 other.val7)

/-- `operator+=` (detail/short_vec_qpx_double_32.hpp:129-140) -/
def opAddAssign (E : FEnv) (self : V) (other : V) : V :=
  let val0 : V4d := vec_add E self.val0 other.val0
  let val1 : V4d := vec_add E self.val1 other.val1
  let val2 : V4d := vec_add E self.val2 other.val2
  let val3 : V4d := vec_add E self.val3 other.val3
  let val4 : V4d := vec_add E self.val4 other.val4
  let val5 : V4d := vec_add E self.val5 other.val5
  let val6 : V4d := vec_add E self.val6 other.val6
  let val7 : V4d := vec_add E self.val7 other.val7
  ⟨val0, val1, val2, val3, val4, val5, val6, val7⟩

/-- `operator+` (detail/short_vec_qpx_double_32.hpp:142-154) -/
def opAdd (E : FEnv) (self : V) (other : V) : V :=
  ofRegs E (vec_add E self.val0 other.val0) (vec_add E self.val1 other.val1) (vec_add E self.val2 other.val2) (vec_add E
      self.val3 other.val3) (vec_add E self.val4 other.val4) (vec_add E self.val5 other.val5) (vec_add E self.val6 other.val6)
      (vec_add E self.val7 other.val7)

/-- `operator*=` (detail/short_vec_qpx_double_32.hpp:156-167) -/
def opMulAssign (E : FEnv) (self : V) (other : V) : V :=
  let val0 : V4d := vec_add E self.val0 other.val0
  let val1 : V4d := vec_add E self.val1 other.val1
  let val2 : V4d := vec_add E self.val2 other.val2
  let val3 : V4d := vec_add E self.val3 other.val3
  let val4 : V4d := vec_add E self.val4 other.val4
  let val5 : V4d := vec_add E self.val5 other.val5
  let val6 : V4d := vec_add E self.val6 other.val6
  let val7 : V4d := vec_add E self.val7 other.val7
  ⟨val0, val1, val2, val3, val4, val5, val6, val7⟩

/-- `operator*` (detail/short_vec_qpx_double_32.hpp:169-181) -/
def opMul (E : FEnv) (self : V) (other : V) : V :=
  ofRegs E (vec_mul E self.val0 other.val0) (vec_mul E self.val1 other.val1) (vec_mul E self.val2 other.val2) (vec_mul E
      self.val3 other.val3) (vec_mul E self.val4 other.val4) (vec_mul E self.val5 other.val5) (vec_mul E self.val6 other.val6)
      (vec_mul E self.val7 other.val7)

/-- `operator/=` (detail/short_vec_qpx_double_32.hpp:186-197) -/
def opDivAssign (E : FEnv) (self : V) (other : V) : V :=
  let val0 : V4d := vec_swdiv_nochk E self.val0 other.val0
  let val1 : V4d := vec_swdiv_nochk E self.val1 other.val1
  let val2 : V4d := vec_swdiv_nochk E self.val2 other.val2
  let val3 : V4d := vec_swdiv_nochk E self.val3 other.val3
  let val4 : V4d := vec_swdiv_nochk E self.val4 other.val4
  let val5 : V4d := vec_swdiv_nochk E self.val5 other.val5
  let val6 : V4d := vec_swdiv_nochk E self.val6 other.val6
  let val7 : V4d := vec_swdiv_nochk E self.val7 other.val7
  ⟨val0, val1, val2, val3, val4, val5, val6, val7⟩

/-- `operator/` (detail/short_vec_qpx_double_32.hpp:199-211) -/
def opDiv (E : FEnv) (self : V) (other : V) : V :=
  ofRegs E (vec_swdiv_nochk E self.val0 other.val0) (vec_swdiv_nochk E self.val1 other.val1) (vec_swdiv_nochk E self.val2
      other.val2) (vec_swdiv_nochk E self.val3 other.val3) (vec_swdiv_nochk E self.val4 other.val4) (vec_swdiv_nochk E
      self.val5 other.val5) (vec_swdiv_nochk E self.val6 other.val6) (vec_swdiv_nochk E self.val7 other.val7)

/-- `load_aligned` (detail/short_vec_qpx_double_32.hpp:243-255) -/
def load_aligned (E : FEnv) (m : Mem 64) (self : V) (data : Int) : Option V := do
  assertAligned 8 data 32
  let t1 ← vec_lda m 0 (data + 0)
  let val0 : V4d := t1
  let t2 ← vec_lda m 0 (data + 4)
  let val1 : V4d := t2
  let t3 ← vec_lda m 0 (data + 8)
  let val2 : V4d := t3
  let t4 ← vec_lda m 0 (data + 12)
  let val3 : V4d := t4
  let t5 ← vec_lda m 0 (data + 16)
  let val4 : V4d := t5
  let t6 ← vec_lda m 0 (data + 20)
  let val5 : V4d := t6
  let t7 ← vec_lda m 0 (data + 24)
  let val6 : V4d := t7
  let t8 ← vec_lda m 0 (data + 28)
  let val7 : V4d := t8
  some ⟨val0, val1, val2, val3, val4, val5, val6, val7⟩

/-- `store_aligned` (detail/short_vec_qpx_double_32.hpp:270-282) -/
def store_aligned (E : FEnv) (self : V) (data : Int) : Option (Writes 64) := do
  assertAligned 8 data 32
  let w1 ← vec_sta self.val0 0 (data + 0)
  let w2 ← vec_sta self.val1 0 (data + 4)
  let w3 ← vec_sta self.val2 0 (data + 8)
  let w4 ← vec_sta self.val3 0 (data + 12)
  let w5 ← vec_sta self.val4 0 (data + 16)
  let w6 ← vec_sta self.val5 0 (data + 20)
  let w7 ← vec_sta self.val6 0 (data + 24)
  let w8 ← vec_sta self.val7 0 (data + 28)
  some (w1 ++ w2 ++ w3 ++ w4 ++ w5 ++ w6 ++ w7 ++ w8)

/-- `store_nt` (detail/short_vec_qpx_double_32.hpp:284-288) -/
def store_nt (E : FEnv) (self : V) (data : Int) : Option (Writes 64) := do
  let w1 ← store E self data
  some w1

/-- `gather` (detail/short_vec_qpx_double_32.hpp:290-333) -/
def gather (E : FEnv) (m : Mem 64) (mo : Mem 32) (self : V) (ptr : Int) (offsets : Int) : Option V := do
  let t1 ← mo (offsets + 0)
  let t2 ← m (ptr + t1.toInt)
  let val0 : V4d := vec_insert t2 self.val0 0
  let t3 ← mo (offsets + 1)
  let t4 ← m (ptr + t3.toInt)
  let val0 : V4d := vec_insert t4 val0 1
  let t5 ← mo (offsets + 2)
  let t6 ← m (ptr + t5.toInt)
  let val0 : V4d := vec_insert t6 val0 2
  let t7 ← mo (offsets + 3)
  let t8 ← m (ptr + t7.toInt)
  let val0 : V4d := vec_insert t8 val0 3
  let t9 ← mo (offsets + 4)
  let t10 ← m (ptr + t9.toInt)
  let val1 : V4d := vec_insert t10 self.val1 0
  let t11 ← mo (offsets + 5)
  let t12 ← m (ptr + t11.toInt)
  let val1 : V4d := vec_insert t12 val1 1
  let t13 ← mo (offsets + 6)
  let t14 ← m (ptr + t13.toInt)
  let val1 : V4d := vec_insert t14 val1 2
  let t15 ← mo (offsets + 7)
  let t16 ← m (ptr + t15.toInt)
  let val1 : V4d := vec_insert t16 val1 3
  let t17 ← mo (offsets + 8)
  let t18 ← m (ptr + t17.toInt)
  let val2 : V4d := vec_insert t18 self.val2 0
  let t19 ← mo (offsets + 9)
  let t20 ← m (ptr + t19.toInt)
  let val2 : V4d := vec_insert t20 val2 1
  let t21 ← mo (offsets + 10)
  let t22 ← m (ptr + t21.toInt)
  let val2 : V4d := vec_insert t22 val2 2
  let t23 ← mo (offsets + 11)
  let t24 ← m (ptr + t23.toInt)
  let val2 : V4d := vec_insert t24 val2 3
  let t25 ← mo (offsets + 12)
  let t26 ← m (ptr + t25.toInt)
  let val3 : V4d := vec_insert t26 self.val3 0
  let t27 ← mo (offsets + 13)
  let t28 ← m (ptr + t27.toInt)
  let val3 : V4d := vec_insert t28 val3 1
  let t29 ← mo (offsets + 14)
  let t30 ← m (ptr + t29.toInt)
  let val3 : V4d := vec_insert t30 val3 2
  let t31 ← mo (offsets + 15)
  let t32 ← m (ptr + t31.toInt)
  let val3 : V4d := vec_insert t32 val3 3
  let t33 ← mo (offsets + 16)
  let t34 ← m (ptr + t33.toInt)
  let val4 : V4d := vec_insert t34 self.val4 0
  let t35 ← mo (offsets + 17)
  let t36 ← m (ptr + t35.toInt)
  let val4 : V4d := vec_insert t36 val4 1
  let t37 ← mo (offsets + 18)
  let t38 ← m (ptr + t37.toInt)
  let val4 : V4d := vec_insert t38 val4 2
  let t39 ← mo (offsets + 19)
  let t40 ← m (ptr + t39.toInt)
  let val4 : V4d := vec_insert t40 val4 3
  let t41 ← mo (offsets + 20)
  let t42 ← m (ptr + t41.toInt)
  let val5 : V4d := vec_insert t42 self.val5 0
  let t43 ← mo (offsets + 21)
  let t44 ← m (ptr + t43.toInt)
  let val5 : V4d := vec_insert t44 val5 1
  let t45 ← mo (offsets + 22)
  let t46 ← m (ptr + t45.toInt)
  let val5 : V4d := vec_insert t46 val5 2
  let t47 ← mo (offsets + 23)
  let t48 ← m (ptr + t47.toInt)
  let val5 : V4d := vec_insert t48 val5 3
  let t49 ← mo (offsets + 24)
  let t50 ← m (ptr + t49.toInt)
  let val6 : V4d := vec_insert t50 self.val6 0
  let t51 ← mo (offsets + 25)
  let t52 ← m (ptr + t51.toInt)
  let val6 : V4d := vec_insert t52 val6 1
  let t53 ← mo (offsets + 26)
  let t54 ← m (ptr + t53.toInt)
  let val6 : V4d := vec_insert t54 val6 2
  let t55 ← mo (offsets + 27)
  let t56 ← m (ptr + t55.toInt)
  let val6 : V4d := vec_insert t56 val6 3
  let t57 ← mo (offsets + 28)
  let t58 ← m (ptr + t57.toInt)
  let val7 : V4d := vec_insert t58 self.val7 0
  let t59 ← mo (offsets + 29)
  let t60 ← m (ptr + t59.toInt)
  let val7 : V4d := vec_insert t60 val7 1
  let t61 ← mo (offsets + 30)
  let t62 ← m (ptr + t61.toInt)
  let val7 : V4d := vec_insert t62 val7 2
  let t63 ← mo (offsets + 31)
  let t64 ← m (ptr + t63.toInt)
  let val7 : V4d := vec_insert t64 val7 3
  some ⟨val0, val1, val2, val3, val4, val5, val6, val7⟩

/-- `scatter` (detail/short_vec_qpx_double_32.hpp:335-377) -/
def scatter (E : FEnv) (mo : Mem 32) (self : V) (ptr : Int) (offsets : Int) : Option (Writes 64) := do
  let t1 ← mo (offsets + 0)
  let t2 ← mo (offsets + 1)
  let t3 ← mo (offsets + 2)
  let t4 ← mo (offsets + 3)
  let t5 ← mo (offsets + 4)
  let t6 ← mo (offsets + 5)
  let t7 ← mo (offsets + 6)
  let t8 ← mo (offsets + 7)
  let t9 ← mo (offsets + 8)
  let t10 ← mo (offsets + 9)
  let t11 ← mo (offsets + 10)
  let t12 ← mo (offsets + 11)
  let t13 ← mo (offsets + 12)
  let t14 ← mo (offsets + 13)
  let t15 ← mo (offsets + 14)
  let t16 ← mo (offsets + 15)
  let t17 ← mo (offsets + 16)
  let t18 ← mo (offsets + 17)
  let t19 ← mo (offsets + 18)
  let t20 ← mo (offsets + 19)
  let t21 ← mo (offsets + 20)
  let t22 ← mo (offsets + 21)
  let t23 ← mo (offsets + 22)
  let t24 ← mo (offsets + 23)
  let t25 ← mo (offsets + 24)
  let t26 ← mo (offsets + 25)
  let t27 ← mo (offsets + 26)
  let t28 ← mo (offsets + 27)
  let t29 ← mo (offsets + 28)
  let t30 ← mo (offsets + 29)
  let t31 ← mo (offsets + 30)
  let t32 ← mo (offsets + 31)
  some ([(ptr + t1.toInt, vec_extract self.val0 0)] ++ [(ptr + t2.toInt, vec_extract self.val0 1)] ++ [(ptr + t3.toInt,
      vec_extract self.val0 2)] ++ [(ptr + t4.toInt, vec_extract self.val0 3)] ++ [(ptr + t5.toInt, vec_extract self.val1 0)]
      ++ [(ptr + t6.toInt, vec_extract self.val1 1)] ++ [(ptr + t7.toInt, vec_extract self.val1 2)] ++ [(ptr + t8.toInt,
      vec_extract self.val1 3)] ++ [(ptr + t9.toInt, vec_extract self.val2 0)] ++ [(ptr + t10.toInt, vec_extract self.val2 1)]
      ++ [(ptr + t11.toInt, vec_extract self.val2 2)] ++ [(ptr + t12.toInt, vec_extract self.val2 3)] ++ [(ptr + t13.toInt,
      vec_extract self.val3 0)] ++ [(ptr + t14.toInt, vec_extract self.val3 1)] ++ [(ptr + t15.toInt, vec_extract self.val3 2)]
      ++ [(ptr + t16.toInt, vec_extract self.val3 3)] ++ [(ptr + t17.toInt, vec_extract self.val4 0)] ++ [(ptr + t18.toInt,
      vec_extract self.val4 1)] ++ [(ptr + t19.toInt, vec_extract self.val4 2)] ++ [(ptr + t20.toInt, vec_extract self.val4 3)]
      ++ [(ptr + t21.toInt, vec_extract self.val5 0)] ++ [(ptr + t22.toInt, vec_extract self.val5 1)] ++ [(ptr + t23.toInt,
      vec_extract self.val5 2)] ++ [(ptr + t24.toInt, vec_extract self.val5 3)] ++ [(ptr + t25.toInt, vec_extract self.val6 0)]
      ++ [(ptr + t26.toInt, vec_extract self.val6 1)] ++ [(ptr + t27.toInt, vec_extract self.val6 2)] ++ [(ptr + t28.toInt,
      vec_extract self.val6 3)] ++ [(ptr + t29.toInt, vec_extract self.val7 0)] ++ [(ptr + t30.toInt, vec_extract self.val7 1)]
      ++ [(ptr + t31.toInt, vec_extract self.val7 2)] ++ [(ptr + t32.toInt, vec_extract self.val7 3)])

/-- `operator<<`, free function (detail/short_vec_qpx_double_32.hpp:394-398) -/
def opStore (E : FEnv) (data : Int) (vec : V) : Option (Writes 64) := do
  let w1 ← store E vec data
  some w1

/-- `operator/=` of `sqrt_reference` (detail/short_vec_qpx_double_32.hpp:427-438) -/
def opDivAssignSqrt (E : FEnv) (self : V) (other : SqrtRef) : V :=
  let val0 : V4d := vec_mul E self.val0 (vec_rsqrte E other.vec.val0)
  let val1 : V4d := vec_mul E self.val1 (vec_rsqrte E other.vec.val1)
  let val2 : V4d := vec_mul E self.val2 (vec_rsqrte E other.vec.val2)
  let val3 : V4d := vec_mul E self.val3 (vec_rsqrte E other.vec.val3)
  let val4 : V4d := vec_mul E self.val4 (vec_rsqrte E other.vec.val4)
  let val5 : V4d := vec_mul E self.val5 (vec_rsqrte E other.vec.val5)
  let val6 : V4d := vec_mul E self.val6 (vec_rsqrte E other.vec.val6)
  let val7 : V4d := vec_mul E self.val7 (vec_rsqrte E other.vec.val7)
  ⟨val0, val1, val2, val3, val4, val5, val6, val7⟩

/-- `operator/` of `sqrt_reference` (detail/short_vec_qpx_double_32.hpp:440-452) -/
def opDivSqrt (E : FEnv) (self : V) (other : SqrtRef) : V :=
  ofRegs E (vec_mul E self.val0 (vec_rsqrte E other.vec.val0)) (vec_mul E self.val1 (vec_rsqrte E other.vec.val1)) (vec_mul E
      self.val2 (vec_rsqrte E other.vec.val2)) (vec_mul E self.val3 (vec_rsqrte E other.vec.val3)) (vec_mul E self.val4
      (vec_rsqrte E other.vec.val4)) (vec_mul E self.val5 (vec_rsqrte E other.vec.val5)) (vec_mul E self.val6 (vec_rsqrte E
      other.vec.val6)) (vec_mul E self.val7 (vec_rsqrte E other.vec.val7))

/-- `sqrt`, free function (detail/short_vec_qpx_double_32.hpp:454-458) -/
def sqrtFn (E : FEnv) (vec : V) : SqrtRef := SqrtRef.mk vec

/-- `operator<<`, free function (detail/short_vec_qpx_double_32.hpp:460-483) -/
def print (E : FEnv) (vec : V) : List (Out 64) :=
  [.s "[", .v vec.val0.x0, .s ", ", .v vec.val0.x1, .s ", ", .v vec.val0.x2, .s ", ", .v vec.val0.x3, .s ", ", .v vec.val1.x0,
      .s ", ", .v vec.val1.x1, .s ", ", .v vec.val1.x2, .s ", ", .v vec.val1.x3, .s ", ", .v vec.val2.x0, .s ", ", .v
      vec.val2.x1, .s ", ", .v vec.val2.x2, .s ", ", .v vec.val2.x3, .s ", ", .v vec.val3.x0, .s ", ", .v vec.val3.x1, .s ", ",
      .v vec.val3.x2, .s ", ", .v vec.val3.x3, .s "[", .v vec.val4.x0, .s ", ", .v vec.val4.x1, .s ", ", .v vec.val4.x2, .s
      ", ", .v vec.val4.x3, .s ", ", .v vec.val5.x0, .s ", ", .v vec.val5.x1, .s ", ", .v vec.val5.x2, .s ", ", .v vec.val5.x3,
      .s ", ", .v vec.val6.x0, .s ", ", .v vec.val6.x1, .s ", ", .v vec.val6.x2, .s ", ", .v vec.val6.x3, .s ", ", .v
      vec.val7.x0, .s ", ", .v vec.val7.x1, .s ", ", .v vec.val7.x2, .s ", ", .v vec.val7.x3, .s "]"]

end LFA.SV.QpxDouble32
