/-
  Generated by tools/sv_gen.py from detail/short_vec_scalar_double_*.hpp.
-/
import Verif.SV.Base
set_option linter.unusedVariables false
set_option autoImplicit false

namespace LFA.SV.ScalarDouble1

/-- members of `short_vec<double, 1>` (detail/short_vec_scalar_double_1.hpp:51) -/
structure V where
  val : BitVec 64

/-- lanes, from low to high -/
def V.lanes (v : V) : List (BitVec 64) := [v.val]

/-- `mask_type` -/
abbrev Mask := BitVec 8

/-- constructor (detail/short_vec_scalar_double_1.hpp:63-66) -/
def bcast (E : FEnv) (data : BitVec 64) : V := ⟨data⟩

/-- `load` (detail/short_vec_scalar_double_1.hpp:185-189) -/
def load (E : FEnv) (m : Mem 64) (self : V) (data : Int) : Option V := do
  let t1 ← m (data + 0)
  let val : BitVec 64 := t1
  some ⟨val⟩

/-- `store` (detail/short_vec_scalar_double_1.hpp:197-201) -/
def store (E : FEnv) (self : V) (data : Int) : Option (Writes 64) := some [(data + 0, self.val)]

/-- `sqrt` (detail/short_vec_scalar_double_1.hpp:179-183) -/
def sqrt (E : FEnv) (self : V) : V := bcast E (E.f64.sqrt self.val)

/-- constructor (detail/short_vec_scalar_double_1.hpp:68-72) -/
def ofPtr (E : FEnv) (m : Mem 64) (data : Int) : Option V := do
  let v1 ← load E m ⟨(uninit : BitVec 64)⟩ data
  some ⟨v1.val⟩

/-- constructor (detail/short_vec_scalar_double_1.hpp:75-80) -/
def ofList (E : FEnv) (m : Mem 64) (il : Int) : Option V := do
  let v1 ← load E m ⟨(uninit : BitVec 64)⟩ il
  some ⟨v1.val⟩

/-- `any` (detail/short_vec_scalar_double_1.hpp:83-87) -/
def any (E : FEnv) (self : V) : Bool := truthy self.val

/-- `operator[]` (detail/short_vec_scalar_double_1.hpp:89-93) -/
def opIndex (E : FEnv) (self : V) (i : BitVec 32) : BitVec 64 := self.val

/-- `operator-=` (detail/short_vec_scalar_double_1.hpp:95-99) -/
def opSubAssign (E : FEnv) (self : V) (other : V) : V :=
  let val : BitVec 64 := E.f64.sub self.val other.val
  ⟨val⟩

/-- `operator-` (detail/short_vec_scalar_double_1.hpp:101-106) -/
def opSub (E : FEnv) (self : V) (other : V) : V := bcast E (E.f64.sub self.val other.val)

/-- `operator+=` (detail/short_vec_scalar_double_1.hpp:108-112) -/
def opAddAssign (E : FEnv) (self : V) (other : V) : V :=
  let val : BitVec 64 := E.f64.add self.val other.val
  ⟨val⟩

/-- `operator+` (detail/short_vec_scalar_double_1.hpp:114-119) -/
def opAdd (E : FEnv) (self : V) (other : V) : V := bcast E (E.f64.add self.val other.val)

/-- `operator*=` (detail/short_vec_scalar_double_1.hpp:121-125) -/
def opMulAssign (E : FEnv) (self : V) (other : V) : V :=
  let val : BitVec 64 := E.f64.mul self.val other.val
  ⟨val⟩

/-- `operator*` (detail/short_vec_scalar_double_1.hpp:127-132) -/
def opMul (E : FEnv) (self : V) (other : V) : V := bcast E (E.f64.mul self.val other.val)

/-- `operator/=` (detail/short_vec_scalar_double_1.hpp:134-138) -/
def opDivAssign (E : FEnv) (self : V) (other : V) : V :=
  let val : BitVec 64 := E.f64.div self.val other.val
  ⟨val⟩

/-- `operator/` (detail/short_vec_scalar_double_1.hpp:140-145) -/
def opDiv (E : FEnv) (self : V) (other : V) : V := bcast E (E.f64.div self.val other.val)

/-- `operator<` (detail/short_vec_scalar_double_1.hpp:148-152) -/
def opLt (E : FEnv) (self : V) (other : V) : Mask := (b2i (E.f64.lt self.val other.val)).setWidth 8

/-- `operator<=` (detail/short_vec_scalar_double_1.hpp:154-158) -/
def opLe (E : FEnv) (self : V) (other : V) : Mask := (b2i (E.f64.le self.val other.val)).setWidth 8

/-- `operator==` (detail/short_vec_scalar_double_1.hpp:160-164) -/
def opEq (E : FEnv) (self : V) (other : V) : Mask := (b2i (E.f64.eq self.val other.val)).setWidth 8

/-- `operator>` (detail/short_vec_scalar_double_1.hpp:166-170) -/
def opGt (E : FEnv) (self : V) (other : V) : Mask := (b2i (E.f64.gt self.val other.val)).setWidth 8

/-- `operator>=` (detail/short_vec_scalar_double_1.hpp:172-176) -/
def opGe (E : FEnv) (self : V) (other : V) : Mask := (b2i (E.f64.ge self.val other.val)).setWidth 8

/-- `load_aligned` (detail/short_vec_scalar_double_1.hpp:191-195) -/
def load_aligned (E : FEnv) (m : Mem 64) (self : V) (data : Int) : Option V := do
  let v1 ← load E m self data
  some ⟨v1.val⟩

/-- `store_aligned` (detail/short_vec_scalar_double_1.hpp:203-207) -/
def store_aligned (E : FEnv) (self : V) (data : Int) : Option (Writes 64) := do
  let w1 ← store E self data
  some w1

/-- `store_nt` (detail/short_vec_scalar_double_1.hpp:209-213) -/
def store_nt (E : FEnv) (self : V) (data : Int) : Option (Writes 64) := do
  let w1 ← store E self data
  some w1

/-- `gather` (detail/short_vec_scalar_double_1.hpp:215-219) -/
def gather (E : FEnv) (m : Mem 64) (mo : Mem 32) (self : V) (ptr : Int) (offsets : Int) : Option V := do
  let t1 ← mo (offsets + 0)
  let t2 ← m (ptr + t1.toInt)
  let val : BitVec 64 := t2
  some ⟨val⟩

/-- `scatter` (detail/short_vec_scalar_double_1.hpp:221-225) -/
def scatter (E : FEnv) (mo : Mem 32) (self : V) (ptr : Int) (offsets : Int) : Option (Writes 64) := do
  let t1 ← mo (offsets + 0)
  some [(ptr + t1.toInt, self.val)]

/-- `blend` (detail/short_vec_scalar_double_1.hpp:227-233) -/
def blend (E : FEnv) (self : V) (mask : Mask) (other : V) : V :=
  let val : BitVec 64 := if ((promote mask) &&& (1 : BitVec 32)) != 0 then other.val else self.val
  ⟨val⟩

/-- `operator<<`, free function (detail/short_vec_scalar_double_1.hpp:243-247) -/
def opStore (E : FEnv) (data : Int) (vec : V) : Option (Writes 64) := do
  let w1 ← store E vec data
  some w1

/-- `sqrt`, free function (detail/short_vec_scalar_double_1.hpp:249-253) -/
def sqrtFn (E : FEnv) (vec : V) : V := sqrt E vec

/-- `operator<<`, free function (detail/short_vec_scalar_double_1.hpp:261-269) -/
def print (E : FEnv) (vec : V) : List (Out 64) := [.s "[", .v vec.val, .s "]"]

end LFA.SV.ScalarDouble1

namespace LFA.SV.ScalarDouble2

/-- members of `short_vec<double, 2>` (detail/short_vec_scalar_double_2.hpp:54) -/
structure V where
  val0 : BitVec 64
  val1 : BitVec 64

/-- lanes, from low to high -/
def V.lanes (v : V) : List (BitVec 64) := [v.val0, v.val1]

/-- `mask_type` -/
abbrev Mask := BitVec 8

/-- constructor (detail/short_vec_scalar_double_2.hpp:66-70) -/
def bcast (E : FEnv) (data : BitVec 64) : V := ⟨data, data⟩

/-- constructor (detail/short_vec_scalar_double_2.hpp:78-84) -/
def ofRegs (E : FEnv) (val1 : BitVec 64) (val2 : BitVec 64) : V := ⟨val1, val2⟩

/-- `load` (detail/short_vec_scalar_double_2.hpp:219-224) -/
def load (E : FEnv) (m : Mem 64) (self : V) (data : Int) : Option V := do
  let t1 ← m (data + 0)
  let val0 : BitVec 64 := t1
  let t2 ← m (data + 1)
  let val1 : BitVec 64 := t2
  some ⟨val0, val1⟩

/-- `store` (detail/short_vec_scalar_double_2.hpp:232-237) -/
def store (E : FEnv) (self : V) (data : Int) : Option (Writes 64) :=
  some ([(data + 0, self.val0)] ++ [(data + 1, self.val1)])

/-- `sqrt` (detail/short_vec_scalar_double_2.hpp:211-217) -/
def sqrt (E : FEnv) (self : V) : V := ofRegs E (E.f64.sqrt self.val0) (E.f64.sqrt self.val1)

/-- constructor (detail/short_vec_scalar_double_2.hpp:72-76) -/
def ofPtr (E : FEnv) (m : Mem 64) (data : Int) : Option V := do
  let v1 ← load E m ⟨(uninit : BitVec 64), (uninit : BitVec 64)⟩ data
  some ⟨v1.val0, v1.val1⟩

/-- constructor (detail/short_vec_scalar_double_2.hpp:87-92) -/
def ofList (E : FEnv) (m : Mem 64) (il : Int) : Option V := do
  let v1 ← load E m ⟨(uninit : BitVec 64), (uninit : BitVec 64)⟩ il
  some ⟨v1.val0, v1.val1⟩

/-- `any` (detail/short_vec_scalar_double_2.hpp:95-101) -/
def any (E : FEnv) (self : V) : Bool := (truthy self.val0) || (truthy self.val1)

/-- `operator[]` (detail/short_vec_scalar_double_2.hpp:103-107) -/
def opIndex (E : FEnv) (self : V) (i : BitVec 32) : Option (BitVec 64) := do
  let t1 ← dyn [self.val0, self.val1] i
  some t1

/-- `operator-=` (detail/short_vec_scalar_double_2.hpp:109-114) -/
def opSubAssign (E : FEnv) (self : V) (other : V) : V :=
  let val0 : BitVec 64 := E.f64.sub self.val0 other.val0
  let val1 : BitVec 64 := E.f64.sub self.val1 other.val1
  ⟨val0, val1⟩

/-- `operator-` (detail/short_vec_scalar_double_2.hpp:116-122) -/
def opSub (E : FEnv) (self : V) (other : V) : V :=
  ofRegs E (E.f64.sub self.val0 other.val0) (E.f64.sub self.val1 other.val1)

/-- `operator+=` (detail/short_vec_scalar_double_2.hpp:124-129) -/
def opAddAssign (E : FEnv) (self : V) (other : V) : V :=
  let val0 : BitVec 64 := E.f64.add self.val0 other.val0
  let val1 : BitVec 64 := E.f64.add self.val1 other.val1
  ⟨val0, val1⟩

/-- `operator+` (detail/short_vec_scalar_double_2.hpp:131-137) -/
def opAdd (E : FEnv) (self : V) (other : V) : V :=
  ofRegs E (E.f64.add self.val0 other.val0) (E.f64.add self.val1 other.val1)

/-- `operator*=` (detail/short_vec_scalar_double_2.hpp:139-144) -/
def opMulAssign (E : FEnv) (self : V) (other : V) : V :=
  let val0 : BitVec 64 := E.f64.mul self.val0 other.val0
  let val1 : BitVec 64 := E.f64.mul self.val1 other.val1
  ⟨val0, val1⟩

/-- `operator*` (detail/short_vec_scalar_double_2.hpp:146-152) -/
def opMul (E : FEnv) (self : V) (other : V) : V :=
  ofRegs E (E.f64.mul self.val0 other.val0) (E.f64.mul self.val1 other.val1)

/-- `operator/=` (detail/short_vec_scalar_double_2.hpp:154-159) -/
def opDivAssign (E : FEnv) (self : V) (other : V) : V :=
  let val0 : BitVec 64 := E.f64.div self.val0 other.val0
  let val1 : BitVec 64 := E.f64.div self.val1 other.val1
  ⟨val0, val1⟩

/-- `operator/` (detail/short_vec_scalar_double_2.hpp:161-167) -/
def opDiv (E : FEnv) (self : V) (other : V) : V :=
  ofRegs E (E.f64.div self.val0 other.val0) (E.f64.div self.val1 other.val1)

/-- `operator<` (detail/short_vec_scalar_double_2.hpp:170-176) -/
def opLt (E : FEnv) (self : V) (other : V) : Option Mask := do
  let t1 ← iadd ((b2i (E.f64.lt self.val0 other.val0)) <<< 0) ((b2i (E.f64.lt self.val1 other.val1)) <<< 1)
  some (t1.setWidth 8)

/-- `operator<=` (detail/short_vec_scalar_double_2.hpp:178-184) -/
def opLe (E : FEnv) (self : V) (other : V) : Option Mask := do
  let t1 ← iadd ((b2i (E.f64.le self.val0 other.val0)) <<< 0) ((b2i (E.f64.le self.val1 other.val1)) <<< 1)
  some (t1.setWidth 8)

/-- `operator==` (detail/short_vec_scalar_double_2.hpp:186-192) -/
def opEq (E : FEnv) (self : V) (other : V) : Option Mask := do
  let t1 ← iadd ((b2i (E.f64.eq self.val0 other.val0)) <<< 0) ((b2i (E.f64.eq self.val1 other.val1)) <<< 1)
  some (t1.setWidth 8)

/-- `operator>` (detail/short_vec_scalar_double_2.hpp:194-200) -/
def opGt (E : FEnv) (self : V) (other : V) : Option Mask := do
  let t1 ← iadd ((b2i (E.f64.gt self.val0 other.val0)) <<< 0) ((b2i (E.f64.gt self.val1 other.val1)) <<< 1)
  some (t1.setWidth 8)

/-- `operator>=` (detail/short_vec_scalar_double_2.hpp:202-208) -/
def opGe (E : FEnv) (self : V) (other : V) : Option Mask := do
  let t1 ← iadd ((b2i (E.f64.ge self.val0 other.val0)) <<< 0) ((b2i (E.f64.ge self.val1 other.val1)) <<< 1)
  some (t1.setWidth 8)

/-- `load_aligned` (detail/short_vec_scalar_double_2.hpp:226-230) -/
def load_aligned (E : FEnv) (m : Mem 64) (self : V) (data : Int) : Option V := do
  let v1 ← load E m self data
  some ⟨v1.val0, v1.val1⟩

/-- `store_aligned` (detail/short_vec_scalar_double_2.hpp:239-243) -/
def store_aligned (E : FEnv) (self : V) (data : Int) : Option (Writes 64) := do
  let w1 ← store E self data
  some w1

/-- `store_nt` (detail/short_vec_scalar_double_2.hpp:245-249) -/
def store_nt (E : FEnv) (self : V) (data : Int) : Option (Writes 64) := do
  let w1 ← store E self data
  some w1

/-- `gather` (detail/short_vec_scalar_double_2.hpp:251-256) -/
def gather (E : FEnv) (m : Mem 64) (mo : Mem 32) (self : V) (ptr : Int) (offsets : Int) : Option V := do
  let t1 ← mo (offsets + 0)
  let t2 ← m (ptr + t1.toInt)
  let val0 : BitVec 64 := t2
  let t3 ← mo (offsets + 1)
  let t4 ← m (ptr + t3.toInt)
  let val1 : BitVec 64 := t4
  some ⟨val0, val1⟩

/-- `scatter` (detail/short_vec_scalar_double_2.hpp:258-263) -/
def scatter (E : FEnv) (mo : Mem 32) (self : V) (ptr : Int) (offsets : Int) : Option (Writes 64) := do
  let t1 ← mo (offsets + 0)
  let t2 ← mo (offsets + 1)
  some ([(ptr + t1.toInt, self.val0)] ++ [(ptr + t2.toInt, self.val1)])

/-- `blend` (detail/short_vec_scalar_double_2.hpp:265-274) -/
def blend (E : FEnv) (self : V) (mask : Mask) (other : V) : V :=
  let val0 : BitVec 64 := if ((promote mask) &&& (1 : BitVec 32)) != 0 then other.val0 else self.val0
  let val1 : BitVec 64 := if ((promote mask) &&& (2 : BitVec 32)) != 0 then other.val1 else self.val1
  ⟨val0, val1⟩

/-- `operator<<`, free function (detail/short_vec_scalar_double_2.hpp:280-284) -/
def opStore (E : FEnv) (data : Int) (vec : V) : Option (Writes 64) := do
  let w1 ← store E vec data
  some w1

/-- `sqrt`, free function (detail/short_vec_scalar_double_2.hpp:290-294) -/
def sqrtFn (E : FEnv) (vec : V) : V := sqrt E vec

/-- `operator<<`, free function (detail/short_vec_scalar_double_2.hpp:302-311) -/
def print (E : FEnv) (vec : V) : List (Out 64) := [.s "[", .v vec.val0, .s ", ", .v vec.val1, .s "]"]

end LFA.SV.ScalarDouble2

namespace LFA.SV.ScalarDouble4

/-- members of `short_vec<double, 4>` (detail/short_vec_scalar_double_4.hpp:53) -/
structure V where
  val0 : BitVec 64
  val1 : BitVec 64
  val2 : BitVec 64
  val3 : BitVec 64

/-- lanes, from low to high -/
def V.lanes (v : V) : List (BitVec 64) := [v.val0, v.val1, v.val2, v.val3]

/-- `mask_type` -/
abbrev Mask := BitVec 8

/-- constructor (detail/short_vec_scalar_double_4.hpp:65-71) -/
def bcast (E : FEnv) (data : BitVec 64) : V := ⟨data, data, data, data⟩

/-- constructor (detail/short_vec_scalar_double_4.hpp:79-89) -/
def ofRegs (E : FEnv) (val1 : BitVec 64) (val2 : BitVec 64) (val3 : BitVec 64) (val4 : BitVec 64) : V :=
  ⟨val1, val2, val3, val4⟩

/-- `load` (detail/short_vec_scalar_double_4.hpp:254-261) -/
def load (E : FEnv) (m : Mem 64) (self : V) (data : Int) : Option V := do
  let t1 ← m (data + 0)
  let val0 : BitVec 64 := t1
  let t2 ← m (data + 1)
  let val1 : BitVec 64 := t2
  let t3 ← m (data + 2)
  let val2 : BitVec 64 := t3
  let t4 ← m (data + 3)
  let val3 : BitVec 64 := t4
  some ⟨val0, val1, val2, val3⟩

/-- `store` (detail/short_vec_scalar_double_4.hpp:269-276) -/
def store (E : FEnv) (self : V) (data : Int) : Option (Writes 64) :=
  some ([(data + 0, self.val0)] ++ [(data + 1, self.val1)] ++ [(data + 2, self.val2)] ++ [(data + 3, self.val3)])

/-- `sqrt` (detail/short_vec_scalar_double_4.hpp:244-252) -/
def sqrt (E : FEnv) (self : V) : V :=
  ofRegs E (E.f64.sqrt self.val0) (E.f64.sqrt self.val1) (E.f64.sqrt self.val2) (E.f64.sqrt self.val3)

/-- constructor (detail/short_vec_scalar_double_4.hpp:73-77) -/
def ofPtr (E : FEnv) (m : Mem 64) (data : Int) : Option V := do
  let v1 ← load E m ⟨(uninit : BitVec 64), (uninit : BitVec 64), (uninit : BitVec 64), (uninit : BitVec 64)⟩ data
  some ⟨v1.val0, v1.val1, v1.val2, v1.val3⟩

/-- constructor (detail/short_vec_scalar_double_4.hpp:92-97) -/
def ofList (E : FEnv) (m : Mem 64) (il : Int) : Option V := do
  let v1 ← load E m ⟨(uninit : BitVec 64), (uninit : BitVec 64), (uninit : BitVec 64), (uninit : BitVec 64)⟩ il
  some ⟨v1.val0, v1.val1, v1.val2, v1.val3⟩

/-- `any` (detail/short_vec_scalar_double_4.hpp:100-108) -/
def any (E : FEnv) (self : V) : Bool :=
  (((truthy self.val0) || (truthy self.val1)) || (truthy self.val2)) || (truthy self.val3)

/-- `operator[]` (detail/short_vec_scalar_double_4.hpp:110-114) -/
def opIndex (E : FEnv) (self : V) (i : BitVec 32) : Option (BitVec 64) := do
  let t1 ← dyn [self.val0, self.val1, self.val2, self.val3] i
  some t1

/-- `operator-=` (detail/short_vec_scalar_double_4.hpp:116-123) -/
def opSubAssign (E : FEnv) (self : V) (other : V) : V :=
  let val0 : BitVec 64 := E.f64.sub self.val0 other.val0
  let val1 : BitVec 64 := E.f64.sub self.val1 other.val1
  let val2 : BitVec 64 := E.f64.sub self.val2 other.val2
  let val3 : BitVec 64 := E.f64.sub self.val3 other.val3
  ⟨val0, val1, val2, val3⟩

/-- `operator-` (detail/short_vec_scalar_double_4.hpp:125-133) -/
def opSub (E : FEnv) (self : V) (other : V) : V :=
  ofRegs E (E.f64.sub self.val0 other.val0) (E.f64.sub self.val1 other.val1) (E.f64.sub self.val2 other.val2) (E.f64.sub
      self.val3 other.val3)

/-- `operator+=` (detail/short_vec_scalar_double_4.hpp:135-142) -/
def opAddAssign (E : FEnv) (self : V) (other : V) : V :=
  let val0 : BitVec 64 := E.f64.add self.val0 other.val0
  let val1 : BitVec 64 := E.f64.add self.val1 other.val1
  let val2 : BitVec 64 := E.f64.add self.val2 other.val2
  let val3 : BitVec 64 := E.f64.add self.val3 other.val3
  ⟨val0, val1, val2, val3⟩

/-- `operator+` (detail/short_vec_scalar_double_4.hpp:144-152) -/
def opAdd (E : FEnv) (self : V) (other : V) : V :=
  ofRegs E (E.f64.add self.val0 other.val0) (E.f64.add self.val1 other.val1) (E.f64.add self.val2 other.val2) (E.f64.add
      self.val3 other.val3)

/-- `operator*=` (detail/short_vec_scalar_double_4.hpp:154-161) -/
def opMulAssign (E : FEnv) (self : V) (other : V) : V :=
  let val0 : BitVec 64 := E.f64.mul self.val0 other.val0
  let val1 : BitVec 64 := E.f64.mul self.val1 other.val1
  let val2 : BitVec 64 := E.f64.mul self.val2 other.val2
  let val3 : BitVec 64 := E.f64.mul self.val3 other.val3
  ⟨val0, val1, val2, val3⟩

/-- `operator*` (detail/short_vec_scalar_double_4.hpp:163-171) -/
def opMul (E : FEnv) (self : V) (other : V) : V :=
  ofRegs E (E.f64.mul self.val0 other.val0) (E.f64.mul self.val1 other.val1) (E.f64.mul self.val2 other.val2) (E.f64.mul
      self.val3 other.val3)

/-- `operator/=` (detail/short_vec_scalar_double_4.hpp:173-180) -/
def opDivAssign (E : FEnv) (self : V) (other : V) : V :=
  let val0 : BitVec 64 := E.f64.div self.val0 other.val0
  let val1 : BitVec 64 := E.f64.div self.val1 other.val1
  let val2 : BitVec 64 := E.f64.div self.val2 other.val2
  let val3 : BitVec 64 := E.f64.div self.val3 other.val3
  ⟨val0, val1, val2, val3⟩

/-- `operator/` (detail/short_vec_scalar_double_4.hpp:182-190) -/
def opDiv (E : FEnv) (self : V) (other : V) : V :=
  ofRegs E (E.f64.div self.val0 other.val0) (E.f64.div self.val1 other.val1) (E.f64.div self.val2 other.val2) (E.f64.div
      self.val3 other.val3)

/-- `operator<` (detail/short_vec_scalar_double_4.hpp:193-201) -/
def opLt (E : FEnv) (self : V) (other : V) : Option Mask := do
  let t1 ← iadd ((b2i (E.f64.lt self.val0 other.val0)) <<< 0) ((b2i (E.f64.lt self.val1 other.val1)) <<< 1)
  let t2 ← iadd t1 ((b2i (E.f64.lt self.val2 other.val2)) <<< 2)
  let t3 ← iadd t2 ((b2i (E.f64.lt self.val3 other.val3)) <<< 3)
  some (t3.setWidth 8)

/-- `operator<=` (detail/short_vec_scalar_double_4.hpp:203-211) -/
def opLe (E : FEnv) (self : V) (other : V) : Option Mask := do
  let t1 ← iadd ((b2i (E.f64.le self.val0 other.val0)) <<< 0) ((b2i (E.f64.le self.val1 other.val1)) <<< 1)
  let t2 ← iadd t1 ((b2i (E.f64.le self.val2 other.val2)) <<< 2)
  let t3 ← iadd t2 ((b2i (E.f64.le self.val3 other.val3)) <<< 3)
  some (t3.setWidth 8)

/-- `operator==` (detail/short_vec_scalar_double_4.hpp:213-221) -/
def opEq (E : FEnv) (self : V) (other : V) : Option Mask := do
  let t1 ← iadd ((b2i (E.f64.eq self.val0 other.val0)) <<< 0) ((b2i (E.f64.eq self.val1 other.val1)) <<< 1)
  let t2 ← iadd t1 ((b2i (E.f64.eq self.val2 other.val2)) <<< 2)
  let t3 ← iadd t2 ((b2i (E.f64.eq self.val3 other.val3)) <<< 3)
  some (t3.setWidth 8)

/-- `operator>` (detail/short_vec_scalar_double_4.hpp:223-231) -/
def opGt (E : FEnv) (self : V) (other : V) : Option Mask := do
  let t1 ← iadd ((b2i (E.f64.gt self.val0 other.val0)) <<< 0) ((b2i (E.f64.gt self.val1 other.val1)) <<< 1)
  let t2 ← iadd t1 ((b2i (E.f64.gt self.val2 other.val2)) <<< 2)
  let t3 ← iadd t2 ((b2i (E.f64.gt self.val3 other.val3)) <<< 3)
  some (t3.setWidth 8)

/-- `operator>=` (detail/short_vec_scalar_double_4.hpp:233-241) -/
def opGe (E : FEnv) (self : V) (other : V) : Option Mask := do
  let t1 ← iadd ((b2i (E.f64.ge self.val0 other.val0)) <<< 0) ((b2i (E.f64.ge self.val1 other.val1)) <<< 1)
  let t2 ← iadd t1 ((b2i (E.f64.ge self.val2 other.val2)) <<< 2)
  let t3 ← iadd t2 ((b2i (E.f64.ge self.val3 other.val3)) <<< 3)
  some (t3.setWidth 8)

/-- `load_aligned` (detail/short_vec_scalar_double_4.hpp:263-267) -/
def load_aligned (E : FEnv) (m : Mem 64) (self : V) (data : Int) : Option V := do
  let v1 ← load E m self data
  some ⟨v1.val0, v1.val1, v1.val2, v1.val3⟩

/-- `store_aligned` (detail/short_vec_scalar_double_4.hpp:278-282) -/
def store_aligned (E : FEnv) (self : V) (data : Int) : Option (Writes 64) := do
  let w1 ← store E self data
  some w1

/-- `store_nt` (detail/short_vec_scalar_double_4.hpp:284-288) -/
def store_nt (E : FEnv) (self : V) (data : Int) : Option (Writes 64) := do
  let w1 ← store E self data
  some w1

/-- `gather` (detail/short_vec_scalar_double_4.hpp:290-297) -/
def gather (E : FEnv) (m : Mem 64) (mo : Mem 32) (self : V) (ptr : Int) (offsets : Int) : Option V := do
  let t1 ← mo (offsets + 0)
  let t2 ← m (ptr + t1.toInt)
  let val0 : BitVec 64 := t2
  let t3 ← mo (offsets + 1)
  let t4 ← m (ptr + t3.toInt)
  let val1 : BitVec 64 := t4
  let t5 ← mo (offsets + 2)
  let t6 ← m (ptr + t5.toInt)
  let val2 : BitVec 64 := t6
  let t7 ← mo (offsets + 3)
  let t8 ← m (ptr + t7.toInt)
  let val3 : BitVec 64 := t8
  some ⟨val0, val1, val2, val3⟩

/-- `scatter` (detail/short_vec_scalar_double_4.hpp:299-306) -/
def scatter (E : FEnv) (mo : Mem 32) (self : V) (ptr : Int) (offsets : Int) : Option (Writes 64) := do
  let t1 ← mo (offsets + 0)
  let t2 ← mo (offsets + 1)
  let t3 ← mo (offsets + 2)
  let t4 ← mo (offsets + 3)
  some ([(ptr + t1.toInt, self.val0)] ++ [(ptr + t2.toInt, self.val1)] ++ [(ptr + t3.toInt, self.val2)] ++ [(ptr + t4.toInt,
      self.val3)])

/-- `blend` (detail/short_vec_scalar_double_4.hpp:308-323) -/
def blend (E : FEnv) (self : V) (mask : Mask) (other : V) : V :=
  let val0 : BitVec 64 := if ((promote mask) &&& (1 : BitVec 32)) != 0 then other.val0 else self.val0
  let val1 : BitVec 64 := if ((promote mask) &&& (2 : BitVec 32)) != 0 then other.val1 else self.val1
  let val2 : BitVec 64 := if ((promote mask) &&& (4 : BitVec 32)) != 0 then other.val2 else self.val2
  let val3 : BitVec 64 := if ((promote mask) &&& (8 : BitVec 32)) != 0 then other.val3 else self.val3
  ⟨val0, val1, val2, val3⟩

/-- `operator<<`, free function (detail/short_vec_scalar_double_4.hpp:329-333) -/
def opStore (E : FEnv) (data : Int) (vec : V) : Option (Writes 64) := do
  let w1 ← store E vec data
  some w1

/-- `sqrt`, free function (detail/short_vec_scalar_double_4.hpp:339-343) -/
def sqrtFn (E : FEnv) (vec : V) : V := sqrt E vec

/-- `operator<<`, free function (detail/short_vec_scalar_double_4.hpp:351-362) -/
def print (E : FEnv) (vec : V) : List (Out 64) :=
  [.s "[", .v vec.val0, .s ", ", .v vec.val1, .s ", ", .v vec.val2, .s ", ", .v vec.val3, .s "]"]

end LFA.SV.ScalarDouble4

namespace LFA.SV.ScalarDouble8

/-- members of `short_vec<double, 8>` (detail/short_vec_scalar_double_8.hpp:52) -/
structure V where
  val0 : BitVec 64
  val1 : BitVec 64
  val2 : BitVec 64
  val3 : BitVec 64
  val4 : BitVec 64
  val5 : BitVec 64
  val6 : BitVec 64
  val7 : BitVec 64

/-- lanes, from low to high -/
def V.lanes (v : V) : List (BitVec 64) := [v.val0, v.val1, v.val2, v.val3, v.val4, v.val5, v.val6, v.val7]

/-- `mask_type` -/
abbrev Mask := BitVec 8

/-- constructor (detail/short_vec_scalar_double_8.hpp:64-74) -/
def bcast (E : FEnv) (data : BitVec 64) : V := ⟨data, data, data, data, data, data, data, data⟩

/-- constructor (detail/short_vec_scalar_double_8.hpp:82-100) -/
def ofRegs (E : FEnv) (val1 : BitVec 64) (val2 : BitVec 64) (val3 : BitVec 64) (val4 : BitVec 64) (val5 : BitVec 64) (val6 :
    BitVec 64) (val7 : BitVec 64) (val8 : BitVec 64) : V :=
  ⟨val1, val2, val3, val4, val5, val6, val7, val8⟩

/-- `load` (detail/short_vec_scalar_double_8.hpp:325-336) -/
def load (E : FEnv) (m : Mem 64) (self : V) (data : Int) : Option V := do
  let t1 ← m (data + 0)
  let val0 : BitVec 64 := t1
  let t2 ← m (data + 1)
  let val1 : BitVec 64 := t2
  let t3 ← m (data + 2)
  let val2 : BitVec 64 := t3
  let t4 ← m (data + 3)
  let val3 : BitVec 64 := t4
  let t5 ← m (data + 4)
  let val4 : BitVec 64 := t5
  let t6 ← m (data + 5)
  let val5 : BitVec 64 := t6
  let t7 ← m (data + 6)
  let val6 : BitVec 64 := t7
  let t8 ← m (data + 7)
  let val7 : BitVec 64 := t8
  some ⟨val0, val1, val2, val3, val4, val5, val6, val7⟩

/-- `store` (detail/short_vec_scalar_double_8.hpp:344-355) -/
def store (E : FEnv) (self : V) (data : Int) : Option (Writes 64) :=
  some ([(data + 0, self.val0)] ++ [(data + 1, self.val1)] ++ [(data + 2, self.val2)] ++ [(data + 3, self.val3)] ++ [(data + 4,
      self.val4)] ++ [(data + 5, self.val5)] ++ [(data + 6, self.val6)] ++ [(data + 7, self.val7)])

/-- `sqrt` (detail/short_vec_scalar_double_8.hpp:311-323) -/
def sqrt (E : FEnv) (self : V) : V :=
  ofRegs E (E.f64.sqrt self.val0) (E.f64.sqrt self.val1) (E.f64.sqrt self.val2) (E.f64.sqrt self.val3) (E.f64.sqrt self.val4)
      (E.f64.sqrt self.val5) (E.f64.sqrt self.val6) (E.f64.sqrt self.val7)

/-- constructor (detail/short_vec_scalar_double_8.hpp:76-80) -/
def ofPtr (E : FEnv) (m : Mem 64) (data : Int) : Option V := do
  let v1 ← load E m ⟨(uninit : BitVec 64), (uninit : BitVec 64), (uninit : BitVec 64), (uninit : BitVec 64), (uninit : BitVec
      64), (uninit : BitVec 64), (uninit : BitVec 64), (uninit : BitVec 64)⟩ data
  some ⟨v1.val0, v1.val1, v1.val2, v1.val3, v1.val4, v1.val5, v1.val6, v1.val7⟩

/-- constructor (detail/short_vec_scalar_double_8.hpp:103-108) -/
def ofList (E : FEnv) (m : Mem 64) (il : Int) : Option V := do
  let v1 ← load E m ⟨(uninit : BitVec 64), (uninit : BitVec 64), (uninit : BitVec 64), (uninit : BitVec 64), (uninit : BitVec
      64), (uninit : BitVec 64), (uninit : BitVec 64), (uninit : BitVec 64)⟩ il
  some ⟨v1.val0, v1.val1, v1.val2, v1.val3, v1.val4, v1.val5, v1.val6, v1.val7⟩

/-- `any` (detail/short_vec_scalar_double_8.hpp:111-123) -/
def any (E : FEnv) (self : V) : Bool :=
  (((((((truthy self.val0) || (truthy self.val1)) || (truthy self.val2)) || (truthy self.val3)) || (truthy self.val4)) ||
      (truthy self.val5)) || (truthy self.val6)) || (truthy self.val7)

/-- `operator[]` (detail/short_vec_scalar_double_8.hpp:125-129) -/
def opIndex (E : FEnv) (self : V) (i : BitVec 32) : Option (BitVec 64) := do
  let t1 ← dyn [self.val0, self.val1, self.val2, self.val3, self.val4, self.val5, self.val6, self.val7] i
  some t1

/-- `operator-=` (detail/short_vec_scalar_double_8.hpp:131-142) -/
def opSubAssign (E : FEnv) (self : V) (other : V) : V :=
  let val0 : BitVec 64 := E.f64.sub self.val0 other.val0
  let val1 : BitVec 64 := E.f64.sub self.val1 other.val1
  let val2 : BitVec 64 := E.f64.sub self.val2 other.val2
  let val3 : BitVec 64 := E.f64.sub self.val3 other.val3
  let val4 : BitVec 64 := E.f64.sub self.val4 other.val4
  let val5 : BitVec 64 := E.f64.sub self.val5 other.val5
  let val6 : BitVec 64 := E.f64.sub self.val6 other.val6
  let val7 : BitVec 64 := E.f64.sub self.val7 other.val7
  ⟨val0, val1, val2, val3, val4, val5, val6, val7⟩

/-- `operator-` (detail/short_vec_scalar_double_8.hpp:144-156) -/
def opSub (E : FEnv) (self : V) (other : V) : V :=
  ofRegs E (E.f64.sub self.val0 other.val0) (E.f64.sub self.val1 other.val1) (E.f64.sub self.val2 other.val2) (E.f64.sub
      self.val3 other.val3) (E.f64.sub self.val4 other.val4) (E.f64.sub self.val5 other.val5) (E.f64.sub self.val6 other.val6)
      (E.f64.sub self.val7 other.val7)

/-- `operator+=` (detail/short_vec_scalar_double_8.hpp:158-169) -/
def opAddAssign (E : FEnv) (self : V) (other : V) : V :=
  let val0 : BitVec 64 := E.f64.add self.val0 other.val0
  let val1 : BitVec 64 := E.f64.add self.val1 other.val1
  let val2 : BitVec 64 := E.f64.add self.val2 other.val2
  let val3 : BitVec 64 := E.f64.add self.val3 other.val3
  let val4 : BitVec 64 := E.f64.add self.val4 other.val4
  let val5 : BitVec 64 := E.f64.add self.val5 other.val5
  let val6 : BitVec 64 := E.f64.add self.val6 other.val6
  let val7 : BitVec 64 := E.f64.add self.val7 other.val7
  ⟨val0, val1, val2, val3, val4, val5, val6, val7⟩

/-- `operator+` (detail/short_vec_scalar_double_8.hpp:171-183) -/
def opAdd (E : FEnv) (self : V) (other : V) : V :=
  ofRegs E (E.f64.add self.val0 other.val0) (E.f64.add self.val1 other.val1) (E.f64.add self.val2 other.val2) (E.f64.add
      self.val3 other.val3) (E.f64.add self.val4 other.val4) (E.f64.add self.val5 other.val5) (E.f64.add self.val6 other.val6)
      (E.f64.add self.val7 other.val7)

/-- `operator*=` (detail/short_vec_scalar_double_8.hpp:185-196) -/
def opMulAssign (E : FEnv) (self : V) (other : V) : V :=
  let val0 : BitVec 64 := E.f64.mul self.val0 other.val0
  let val1 : BitVec 64 := E.f64.mul self.val1 other.val1
  let val2 : BitVec 64 := E.f64.mul self.val2 other.val2
  let val3 : BitVec 64 := E.f64.mul self.val3 other.val3
  let val4 : BitVec 64 := E.f64.mul self.val4 other.val4
  let val5 : BitVec 64 := E.f64.mul self.val5 other.val5
  let val6 : BitVec 64 := E.f64.mul self.val6 other.val6
  let val7 : BitVec 64 := E.f64.mul self.val7 other.val7
  ⟨val0, val1, val2, val3, val4, val5, val6, val7⟩

/-- `operator*` (detail/short_vec_scalar_double_8.hpp:198-210) -/
def opMul (E : FEnv) (self : V) (other : V) : V :=
  ofRegs E (E.f64.mul self.val0 other.val0) (E.f64.mul self.val1 other.val1) (E.f64.mul self.val2 other.val2) (E.f64.mul
      self.val3 other.val3) (E.f64.mul self.val4 other.val4) (E.f64.mul self.val5 other.val5) (E.f64.mul self.val6 other.val6)
      (E.f64.mul self.val7 other.val7)

/-- `operator/=` (detail/short_vec_scalar_double_8.hpp:212-223) -/
def opDivAssign (E : FEnv) (self : V) (other : V) : V :=
  let val0 : BitVec 64 := E.f64.div self.val0 other.val0
  let val1 : BitVec 64 := E.f64.div self.val1 other.val1
  let val2 : BitVec 64 := E.f64.div self.val2 other.val2
  let val3 : BitVec 64 := E.f64.div self.val3 other.val3
  let val4 : BitVec 64 := E.f64.div self.val4 other.val4
  let val5 : BitVec 64 := E.f64.div self.val5 other.val5
  let val6 : BitVec 64 := E.f64.div self.val6 other.val6
  let val7 : BitVec 64 := E.f64.div self.val7 other.val7
  ⟨val0, val1, val2, val3, val4, val5, val6, val7⟩

/-- `operator/` (detail/short_vec_scalar_double_8.hpp:225-237) -/
def opDiv (E : FEnv) (self : V) (other : V) : V :=
  ofRegs E (E.f64.div self.val0 other.val0) (E.f64.div self.val1 other.val1) (E.f64.div self.val2 other.val2) (E.f64.div
      self.val3 other.val3) (E.f64.div self.val4 other.val4) (E.f64.div self.val5 other.val5) (E.f64.div self.val6 other.val6)
      (E.f64.div self.val7 other.val7)

/-- `operator<` (detail/short_vec_scalar_double_8.hpp:240-252) -/
def opLt (E : FEnv) (self : V) (other : V) : Option Mask := do
  let t1 ← iadd ((b2i (E.f64.lt self.val0 other.val0)) <<< 0) ((b2i (E.f64.lt self.val1 other.val1)) <<< 1)
  let t2 ← iadd t1 ((b2i (E.f64.lt self.val2 other.val2)) <<< 2)
  let t3 ← iadd t2 ((b2i (E.f64.lt self.val3 other.val3)) <<< 3)
  let t4 ← iadd t3 ((b2i (E.f64.lt self.val4 other.val4)) <<< 4)
  let t5 ← iadd t4 ((b2i (E.f64.lt self.val5 other.val5)) <<< 5)
  let t6 ← iadd t5 ((b2i (E.f64.lt self.val6 other.val6)) <<< 6)
  let t7 ← iadd t6 ((b2i (E.f64.lt self.val7 other.val7)) <<< 7)
  some (t7.setWidth 8)

/-- `operator<=` (detail/short_vec_scalar_double_8.hpp:254-266) -/
def opLe (E : FEnv) (self : V) (other : V) : Option Mask := do
  let t1 ← iadd ((b2i (E.f64.le self.val0 other.val0)) <<< 0) ((b2i (E.f64.le self.val1 other.val1)) <<< 1)
  let t2 ← iadd t1 ((b2i (E.f64.le self.val2 other.val2)) <<< 2)
  let t3 ← iadd t2 ((b2i (E.f64.le self.val3 other.val3)) <<< 3)
  let t4 ← iadd t3 ((b2i (E.f64.le self.val4 other.val4)) <<< 4)
  let t5 ← iadd t4 ((b2i (E.f64.le self.val5 other.val5)) <<< 5)
  let t6 ← iadd t5 ((b2i (E.f64.le self.val6 other.val6)) <<< 6)
  let t7 ← iadd t6 ((b2i (E.f64.le self.val7 other.val7)) <<< 7)
  some (t7.setWidth 8)

/-- `operator==` (detail/short_vec_scalar_double_8.hpp:268-280) -/
def opEq (E : FEnv) (self : V) (other : V) : Option Mask := do
  let t1 ← iadd ((b2i (E.f64.eq self.val0 other.val0)) <<< 0) ((b2i (E.f64.eq self.val1 other.val1)) <<< 1)
  let t2 ← iadd t1 ((b2i (E.f64.eq self.val2 other.val2)) <<< 2)
  let t3 ← iadd t2 ((b2i (E.f64.eq self.val3 other.val3)) <<< 3)
  let t4 ← iadd t3 ((b2i (E.f64.eq self.val4 other.val4)) <<< 4)
  let t5 ← iadd t4 ((b2i (E.f64.eq self.val5 other.val5)) <<< 5)
  let t6 ← iadd t5 ((b2i (E.f64.eq self.val6 other.val6)) <<< 6)
  let t7 ← iadd t6 ((b2i (E.f64.eq self.val7 other.val7)) <<< 7)
  some (t7.setWidth 8)

/-- `operator>` (detail/short_vec_scalar_double_8.hpp:282-294) -/
def opGt (E : FEnv) (self : V) (other : V) : Option Mask := do
  let t1 ← iadd ((b2i (E.f64.gt self.val0 other.val0)) <<< 0) ((b2i (E.f64.gt self.val1 other.val1)) <<< 1)
  let t2 ← iadd t1 ((b2i (E.f64.gt self.val2 other.val2)) <<< 2)
  let t3 ← iadd t2 ((b2i (E.f64.gt self.val3 other.val3)) <<< 3)
  let t4 ← iadd t3 ((b2i (E.f64.gt self.val4 other.val4)) <<< 4)
  let t5 ← iadd t4 ((b2i (E.f64.gt self.val5 other.val5)) <<< 5)
  let t6 ← iadd t5 ((b2i (E.f64.gt self.val6 other.val6)) <<< 6)
  let t7 ← iadd t6 ((b2i (E.f64.gt self.val7 other.val7)) <<< 7)
  some (t7.setWidth 8)

/-- `operator>=` (detail/short_vec_scalar_double_8.hpp:296-308) -/
def opGe (E : FEnv) (self : V) (other : V) : Option Mask := do
  let t1 ← iadd ((b2i (E.f64.ge self.val0 other.val0)) <<< 0) ((b2i (E.f64.ge self.val1 other.val1)) <<< 1)
  let t2 ← iadd t1 ((b2i (E.f64.ge self.val2 other.val2)) <<< 2)
  let t3 ← iadd t2 ((b2i (E.f64.ge self.val3 other.val3)) <<< 3)
  let t4 ← iadd t3 ((b2i (E.f64.ge self.val4 other.val4)) <<< 4)
  let t5 ← iadd t4 ((b2i (E.f64.ge self.val5 other.val5)) <<< 5)
  let t6 ← iadd t5 ((b2i (E.f64.ge self.val6 other.val6)) <<< 6)
  let t7 ← iadd t6 ((b2i (E.f64.ge self.val7 other.val7)) <<< 7)
  some (t7.setWidth 8)

/-- `load_aligned` (detail/short_vec_scalar_double_8.hpp:338-342) -/
def load_aligned (E : FEnv) (m : Mem 64) (self : V) (data : Int) : Option V := do
  let v1 ← load E m self data
  some ⟨v1.val0, v1.val1, v1.val2, v1.val3, v1.val4, v1.val5, v1.val6, v1.val7⟩

/-- `store_aligned` (detail/short_vec_scalar_double_8.hpp:357-361) -/
def store_aligned (E : FEnv) (self : V) (data : Int) : Option (Writes 64) := do
  let w1 ← store E self data
  some w1

/-- `store_nt` (detail/short_vec_scalar_double_8.hpp:363-367) -/
def store_nt (E : FEnv) (self : V) (data : Int) : Option (Writes 64) := do
  let w1 ← store E self data
  some w1

/-- `gather` (detail/short_vec_scalar_double_8.hpp:369-380) -/
def gather (E : FEnv) (m : Mem 64) (mo : Mem 32) (self : V) (ptr : Int) (offsets : Int) : Option V := do
  let t1 ← mo (offsets + 0)
  let t2 ← m (ptr + t1.toInt)
  let val0 : BitVec 64 := t2
  let t3 ← mo (offsets + 1)
  let t4 ← m (ptr + t3.toInt)
  let val1 : BitVec 64 := t4
  let t5 ← mo (offsets + 2)
  let t6 ← m (ptr + t5.toInt)
  let val2 : BitVec 64 := t6
  let t7 ← mo (offsets + 3)
  let t8 ← m (ptr + t7.toInt)
  let val3 : BitVec 64 := t8
  let t9 ← mo (offsets + 4)
  let t10 ← m (ptr + t9.toInt)
  let val4 : BitVec 64 := t10
  let t11 ← mo (offsets + 5)
  let t12 ← m (ptr + t11.toInt)
  let val5 : BitVec 64 := t12
  let t13 ← mo (offsets + 6)
  let t14 ← m (ptr + t13.toInt)
  let val6 : BitVec 64 := t14
  let t15 ← mo (offsets + 7)
  let t16 ← m (ptr + t15.toInt)
  let val7 : BitVec 64 := t16
  some ⟨val0, val1, val2, val3, val4, val5, val6, val7⟩

/-- `scatter` (detail/short_vec_scalar_double_8.hpp:382-393) -/
def scatter (E : FEnv) (mo : Mem 32) (self : V) (ptr : Int) (offsets : Int) : Option (Writes 64) := do
  let t1 ← mo (offsets + 0)
  let t2 ← mo (offsets + 1)
  let t3 ← mo (offsets + 2)
  let t4 ← mo (offsets + 3)
  let t5 ← mo (offsets + 4)
  let t6 ← mo (offsets + 5)
  let t7 ← mo (offsets + 6)
  let t8 ← mo (offsets + 7)
  some ([(ptr + t1.toInt, self.val0)] ++ [(ptr + t2.toInt, self.val1)] ++ [(ptr + t3.toInt, self.val2)] ++ [(ptr + t4.toInt,
      self.val3)] ++ [(ptr + t5.toInt, self.val4)] ++ [(ptr + t6.toInt, self.val5)] ++ [(ptr + t7.toInt, self.val6)] ++ [(ptr +
      t8.toInt, self.val7)])

/-- `blend` (detail/short_vec_scalar_double_8.hpp:395-422) -/
def blend (E : FEnv) (self : V) (mask : Mask) (other : V) : V :=
  let val0 : BitVec 64 := if ((promote mask) &&& (1 : BitVec 32)) != 0 then other.val0 else self.val0
  let val1 : BitVec 64 := if ((promote mask) &&& (2 : BitVec 32)) != 0 then other.val1 else self.val1
  let val2 : BitVec 64 := if ((promote mask) &&& (4 : BitVec 32)) != 0 then other.val2 else self.val2
  let val3 : BitVec 64 := if ((promote mask) &&& (8 : BitVec 32)) != 0 then other.val3 else self.val3
  let val4 : BitVec 64 := if ((promote mask) &&& (16 : BitVec 32)) != 0 then other.val4 else self.val4
  let val5 : BitVec 64 := if ((promote mask) &&& (32 : BitVec 32)) != 0 then other.val5 else self.val5
  let val6 : BitVec 64 := if ((promote mask) &&& (64 : BitVec 32)) != 0 then other.val6 else self.val6
  let val7 : BitVec 64 := if ((promote mask) &&& (128 : BitVec 32)) != 0 then other.val7 else self.val7
  ⟨val0, val1, val2, val3, val4, val5, val6, val7⟩

/-- `operator<<`, free function (detail/short_vec_scalar_double_8.hpp:428-432) -/
def opStore (E : FEnv) (data : Int) (vec : V) : Option (Writes 64) := do
  let w1 ← store E vec data
  some w1

/-- `sqrt`, free function (detail/short_vec_scalar_double_8.hpp:438-442) -/
def sqrtFn (E : FEnv) (vec : V) : V := sqrt E vec

/-- `operator<<`, free function (detail/short_vec_scalar_double_8.hpp:450-459) -/
def print (E : FEnv) (vec : V) : List (Out 64) :=
  [.s "[", .v vec.val0, .s ", ", .v vec.val1, .s ", ", .v vec.val2, .s ", ", .v vec.val3, .s ", ", .v vec.val4, .s ", ", .v
      vec.val5, .s ", ", .v vec.val6, .s ", ", .v vec.val7, .s "]"]

end LFA.SV.ScalarDouble8

namespace LFA.SV.ScalarDouble16

/-- members of `short_vec<double, 16>` (detail/short_vec_scalar_double_16.hpp:54) -/
structure V where
  val0 : BitVec 64
  val1 : BitVec 64
  val2 : BitVec 64
  val3 : BitVec 64
  val4 : BitVec 64
  val5 : BitVec 64
  val6 : BitVec 64
  val7 : BitVec 64
  val8 : BitVec 64
  val9 : BitVec 64
  val10 : BitVec 64
  val11 : BitVec 64
  val12 : BitVec 64
  val13 : BitVec 64
  val14 : BitVec 64
  val15 : BitVec 64

/-- lanes, from low to high -/
def V.lanes (v : V) : List (BitVec 64) := [v.val0, v.val1, v.val2, v.val3, v.val4, v.val5, v.val6, v.val7, v.val8, v.val9,
    v.val10, v.val11, v.val12, v.val13, v.val14, v.val15]

/-- `mask_type` -/
abbrev Mask := BitVec 16

/-- constructor (detail/short_vec_scalar_double_16.hpp:66-84) -/
def bcast (E : FEnv) (data : BitVec 64) : V :=
  ⟨data, data, data, data, data, data, data, data, data, data, data, data, data, data, data, data⟩

/-- constructor (detail/short_vec_scalar_double_16.hpp:92-126) -/
def ofRegs (E : FEnv) (val1 : BitVec 64) (val2 : BitVec 64) (val3 : BitVec 64) (val4 : BitVec 64) (val5 : BitVec 64) (val6 :
    BitVec 64) (val7 : BitVec 64) (val8 : BitVec 64) (val9 : BitVec 64) (val10 : BitVec 64) (val11 : BitVec 64) (val12 : BitVec
    64) (val13 : BitVec 64) (val14 : BitVec 64) (val15 : BitVec 64) (val16 : BitVec 64) : V :=
  ⟨val1, val2, val3, val4, val5, val6, val7, val8, val9, val10, val11, val12, val13, val14, val15, val16⟩

/-- `load` (detail/short_vec_scalar_double_16.hpp:479-498) -/
def load (E : FEnv) (m : Mem 64) (self : V) (data : Int) : Option V := do
  let t1 ← m (data + 0)
  let val0 : BitVec 64 := t1
  let t2 ← m (data + 1)
  let val1 : BitVec 64 := t2
  let t3 ← m (data + 2)
  let val2 : BitVec 64 := t3
  let t4 ← m (data + 3)
  let val3 : BitVec 64 := t4
  let t5 ← m (data + 4)
  let val4 : BitVec 64 := t5
  let t6 ← m (data + 5)
  let val5 : BitVec 64 := t6
  let t7 ← m (data + 6)
  let val6 : BitVec 64 := t7
  let t8 ← m (data + 7)
  let val7 : BitVec 64 := t8
  let t9 ← m (data + 8)
  let val8 : BitVec 64 := t9
  let t10 ← m (data + 9)
  let val9 : BitVec 64 := t10
  let t11 ← m (data + 10)
  let val10 : BitVec 64 := t11
  let t12 ← m (data + 11)
  let val11 : BitVec 64 := t12
  let t13 ← m (data + 12)
  let val12 : BitVec 64 := t13
  let t14 ← m (data + 13)
  let val13 : BitVec 64 := t14
  let t15 ← m (data + 14)
  let val14 : BitVec 64 := t15
  let t16 ← m (data + 15)
  let val15 : BitVec 64 := t16
  some ⟨val0, val1, val2, val3, val4, val5, val6, val7, val8, val9, val10, val11, val12, val13, val14, val15⟩

/-- `store` (detail/short_vec_scalar_double_16.hpp:506-525) -/
def store (E : FEnv) (self : V) (data : Int) : Option (Writes 64) :=
  some ([(data + 0, self.val0)] ++ [(data + 1, self.val1)] ++ [(data + 2, self.val2)] ++ [(data + 3, self.val3)] ++ [(data + 4,
      self.val4)] ++ [(data + 5, self.val5)] ++ [(data + 6, self.val6)] ++ [(data + 7, self.val7)] ++ [(data + 8, self.val8)]
      ++ [(data + 9, self.val9)] ++ [(data + 10, self.val10)] ++ [(data + 11, self.val11)] ++ [(data + 12, self.val12)] ++
      [(data + 13, self.val13)] ++ [(data + 14, self.val14)] ++ [(data + 15, self.val15)])

/-- `sqrt` (detail/short_vec_scalar_double_16.hpp:454-474) -/
def sqrt (E : FEnv) (self : V) : V :=
  ofRegs E (E.f64.sqrt self.val0) (E.f64.sqrt self.val1) (E.f64.sqrt self.val2) (E.f64.sqrt self.val3) (E.f64.sqrt self.val4)
      (E.f64.sqrt self.val5) (E.f64.sqrt self.val6) (E.f64.sqrt self.val7) (E.f64.sqrt self.val8) (E.f64.sqrt self.val9)
      (E.f64.sqrt self.val10) (E.f64.sqrt self.val11) (E.f64.sqrt self.val12) (E.f64.sqrt self.val13) (E.f64.sqrt self.val14)
      (E.f64.sqrt self.val15)

/-- constructor (detail/short_vec_scalar_double_16.hpp:86-90) -/
def ofPtr (E : FEnv) (m : Mem 64) (data : Int) : Option V := do
  let v1 ← load E m ⟨(uninit : BitVec 64), (uninit : BitVec 64), (uninit : BitVec 64), (uninit : BitVec 64), (uninit : BitVec
      64), (uninit : BitVec 64), (uninit : BitVec 64), (uninit : BitVec 64), (uninit : BitVec 64), (uninit : BitVec 64),
      (uninit : BitVec 64), (uninit : BitVec 64), (uninit : BitVec 64), (uninit : BitVec 64), (uninit : BitVec 64), (uninit :
      BitVec 64)⟩ data
  some ⟨v1.val0, v1.val1, v1.val2, v1.val3, v1.val4, v1.val5, v1.val6, v1.val7, v1.val8, v1.val9, v1.val10, v1.val11, v1.val12,
      v1.val13, v1.val14, v1.val15⟩

/-- constructor (detail/short_vec_scalar_double_16.hpp:129-134) -/
def ofList (E : FEnv) (m : Mem 64) (il : Int) : Option V := do
  let v1 ← load E m ⟨(uninit : BitVec 64), (uninit : BitVec 64), (uninit : BitVec 64), (uninit : BitVec 64), (uninit : BitVec
      64), (uninit : BitVec 64), (uninit : BitVec 64), (uninit : BitVec 64), (uninit : BitVec 64), (uninit : BitVec 64),
      (uninit : BitVec 64), (uninit : BitVec 64), (uninit : BitVec 64), (uninit : BitVec 64), (uninit : BitVec 64), (uninit :
      BitVec 64)⟩ il
  some ⟨v1.val0, v1.val1, v1.val2, v1.val3, v1.val4, v1.val5, v1.val6, v1.val7, v1.val8, v1.val9, v1.val10, v1.val11, v1.val12,
      v1.val13, v1.val14, v1.val15⟩

/-- `any` (detail/short_vec_scalar_double_16.hpp:137-157) -/
def any (E : FEnv) (self : V) : Bool :=
  (((((((((((((((truthy self.val0) || (truthy self.val1)) || (truthy self.val2)) || (truthy self.val3)) || (truthy self.val4))
      || (truthy self.val5)) || (truthy self.val6)) || (truthy self.val7)) || (truthy self.val8)) || (truthy self.val9)) ||
      (truthy self.val10)) || (truthy self.val11)) || (truthy self.val12)) || (truthy self.val13)) || (truthy self.val14)) ||
      (truthy self.val15)

/-- `operator[]` (detail/short_vec_scalar_double_16.hpp:159-163) -/
def opIndex (E : FEnv) (self : V) (i : BitVec 32) : Option (BitVec 64) := do
  let t1 ← dyn [self.val0, self.val1, self.val2, self.val3, self.val4, self.val5, self.val6, self.val7, self.val8, self.val9,
      self.val10, self.val11, self.val12, self.val13, self.val14, self.val15] i
  some t1

/-- `operator-=` (detail/short_vec_scalar_double_16.hpp:165-184) -/
def opSubAssign (E : FEnv) (self : V) (other : V) : V :=
  let val0 : BitVec 64 := E.f64.sub self.val0 other.val0
  let val1 : BitVec 64 := E.f64.sub self.val1 other.val1
  let val2 : BitVec 64 := E.f64.sub self.val2 other.val2
  let val3 : BitVec 64 := E.f64.sub self.val3 other.val3
  let val4 : BitVec 64 := E.f64.sub self.val4 other.val4
  let val5 : BitVec 64 := E.f64.sub self.val5 other.val5
  let val6 : BitVec 64 := E.f64.sub self.val6 other.val6
  let val7 : BitVec 64 := E.f64.sub self.val7 other.val7
  let val8 : BitVec 64 := E.f64.sub self.val8 other.val8
  let val9 : BitVec 64 := E.f64.sub self.val9 other.val9
  let val10 : BitVec 64 := E.f64.sub self.val10 other.val10
  let val11 : BitVec 64 := E.f64.sub self.val11 other.val11
  let val12 : BitVec 64 := E.f64.sub self.val12 other.val12
  let val13 : BitVec 64 := E.f64.sub self.val13 other.val13
  let val14 : BitVec 64 := E.f64.sub self.val14 other.val14
  let val15 : BitVec 64 := E.f64.sub self.val15 other.val15
  ⟨val0, val1, val2, val3, val4, val5, val6, val7, val8, val9, val10, val11, val12, val13, val14, val15⟩

/-- `operator-` (detail/short_vec_scalar_double_16.hpp:186-206) -/
def opSub (E : FEnv) (self : V) (other : V) : V :=
  ofRegs E (E.f64.sub self.val0 other.val0) (E.f64.sub self.val1 other.val1) (E.f64.sub self.val2 other.val2) (E.f64.sub
      self.val3 other.val3) (E.f64.sub self.val4 other.val4) (E.f64.sub self.val5 other.val5) (E.f64.sub self.val6 other.val6)
      (E.f64.sub self.val7 other.val7) (E.f64.sub self.val8 other.val8) (E.f64.sub self.val9 other.val9) (E.f64.sub self.val10
      other.val10) (E.f64.sub self.val11 other.val11) (E.f64.sub self.val12 other.val12) (E.f64.sub self.val13 other.val13)
      (E.f64.sub self.val14 other.val14) (E.f64.sub self.val15 other.val15)

/-- `operator+=` (detail/short_vec_scalar_double_16.hpp:208-227) -/
def opAddAssign (E : FEnv) (self : V) (other : V) : V :=
  let val0 : BitVec 64 := E.f64.add self.val0 other.val0
  let val1 : BitVec 64 := E.f64.add self.val1 other.val1
  let val2 : BitVec 64 := E.f64.add self.val2 other.val2
  let val3 : BitVec 64 := E.f64.add self.val3 other.val3
  let val4 : BitVec 64 := E.f64.add self.val4 other.val4
  let val5 : BitVec 64 := E.f64.add self.val5 other.val5
  let val6 : BitVec 64 := E.f64.add self.val6 other.val6
  let val7 : BitVec 64 := E.f64.add self.val7 other.val7
  let val8 : BitVec 64 := E.f64.add self.val8 other.val8
  let val9 : BitVec 64 := E.f64.add self.val9 other.val9
  let val10 : BitVec 64 := E.f64.add self.val10 other.val10
  let val11 : BitVec 64 := E.f64.add self.val11 other.val11
  let val12 : BitVec 64 := E.f64.add self.val12 other.val12
  let val13 : BitVec 64 := E.f64.add self.val13 other.val13
  let val14 : BitVec 64 := E.f64.add self.val14 other.val14
  let val15 : BitVec 64 := E.f64.add self.val15 other.val15
  ⟨val0, val1, val2, val3, val4, val5, val6, val7, val8, val9, val10, val11, val12, val13, val14, val15⟩

/-- `operator+` (detail/short_vec_scalar_double_16.hpp:229-249) -/
def opAdd (E : FEnv) (self : V) (other : V) : V :=
  ofRegs E (E.f64.add self.val0 other.val0) (E.f64.add self.val1 other.val1) (E.f64.add self.val2 other.val2) (E.f64.add
      self.val3 other.val3) (E.f64.add self.val4 other.val4) (E.f64.add self.val5 other.val5) (E.f64.add self.val6 other.val6)
      (E.f64.add self.val7 other.val7) (E.f64.add self.val8 other.val8) (E.f64.add self.val9 other.val9) (E.f64.add self.val10
      other.val10) (E.f64.add self.val11 other.val11) (E.f64.add self.val12 other.val12) (E.f64.add self.val13 other.val13)
      (E.f64.add self.val14 other.val14) (E.f64.add self.val15 other.val15)

/-- `operator*=` (detail/short_vec_scalar_double_16.hpp:251-270) -/
def opMulAssign (E : FEnv) (self : V) (other : V) : V :=
  let val0 : BitVec 64 := E.f64.mul self.val0 other.val0
  let val1 : BitVec 64 := E.f64.mul self.val1 other.val1
  let val2 : BitVec 64 := E.f64.mul self.val2 other.val2
  let val3 : BitVec 64 := E.f64.mul self.val3 other.val3
  let val4 : BitVec 64 := E.f64.mul self.val4 other.val4
  let val5 : BitVec 64 := E.f64.mul self.val5 other.val5
  let val6 : BitVec 64 := E.f64.mul self.val6 other.val6
  let val7 : BitVec 64 := E.f64.mul self.val7 other.val7
  let val8 : BitVec 64 := E.f64.mul self.val8 other.val8
  let val9 : BitVec 64 := E.f64.mul self.val9 other.val9
  let val10 : BitVec 64 := E.f64.mul self.val10 other.val10
  let val11 : BitVec 64 := E.f64.mul self.val11 other.val11
  let val12 : BitVec 64 := E.f64.mul self.val12 other.val12
  let val13 : BitVec 64 := E.f64.mul self.val13 other.val13
  let val14 : BitVec 64 := E.f64.mul self.val14 other.val14
  let val15 : BitVec 64 := E.f64.mul self.val15 other.val15
  ⟨val0, val1, val2, val3, val4, val5, val6, val7, val8, val9, val10, val11, val12, val13, val14, val15⟩

/-- `operator*` (detail/short_vec_scalar_double_16.hpp:272-292) -/
def opMul (E : FEnv) (self : V) (other : V) : V :=
  ofRegs E (E.f64.mul self.val0 other.val0) (E.f64.mul self.val1 other.val1) (E.f64.mul self.val2 other.val2) (E.f64.mul
      self.val3 other.val3) (E.f64.mul self.val4 other.val4) (E.f64.mul self.val5 other.val5) (E.f64.mul self.val6 other.val6)
      (E.f64.mul self.val7 other.val7) (E.f64.mul self.val8 other.val8) (E.f64.mul self.val9 other.val9) (E.f64.mul self.val10
      other.val10) (E.f64.mul self.val11 other.val11) (E.f64.mul self.val12 other.val12) (E.f64.mul self.val13 other.val13)
      (E.f64.mul self.val14 other.val14) (E.f64.mul self.val15 other.val15)

/-- `operator/=` (detail/short_vec_scalar_double_16.hpp:294-313) -/
def opDivAssign (E : FEnv) (self : V) (other : V) : V :=
  let val0 : BitVec 64 := E.f64.div self.val0 other.val0
  let val1 : BitVec 64 := E.f64.div self.val1 other.val1
  let val2 : BitVec 64 := E.f64.div self.val2 other.val2
  let val3 : BitVec 64 := E.f64.div self.val3 other.val3
  let val4 : BitVec 64 := E.f64.div self.val4 other.val4
  let val5 : BitVec 64 := E.f64.div self.val5 other.val5
  let val6 : BitVec 64 := E.f64.div self.val6 other.val6
  let val7 : BitVec 64 := E.f64.div self.val7 other.val7
  let val8 : BitVec 64 := E.f64.div self.val8 other.val8
  let val9 : BitVec 64 := E.f64.div self.val9 other.val9
  let val10 : BitVec 64 := E.f64.div self.val10 other.val10
  let val11 : BitVec 64 := E.f64.div self.val11 other.val11
  let val12 : BitVec 64 := E.f64.div self.val12 other.val12
  let val13 : BitVec 64 := E.f64.div self.val13 other.val13
  let val14 : BitVec 64 := E.f64.div self.val14 other.val14
  let val15 : BitVec 64 := E.f64.div self.val15 other.val15
  ⟨val0, val1, val2, val3, val4, val5, val6, val7, val8, val9, val10, val11, val12, val13, val14, val15⟩

/-- `operator/` (detail/short_vec_scalar_double_16.hpp:315-335) -/
def opDiv (E : FEnv) (self : V) (other : V) : V :=
  ofRegs E (E.f64.div self.val0 other.val0) (E.f64.div self.val1 other.val1) (E.f64.div self.val2 other.val2) (E.f64.div
      self.val3 other.val3) (E.f64.div self.val4 other.val4) (E.f64.div self.val5 other.val5) (E.f64.div self.val6 other.val6)
      (E.f64.div self.val7 other.val7) (E.f64.div self.val8 other.val8) (E.f64.div self.val9 other.val9) (E.f64.div self.val10
      other.val10) (E.f64.div self.val11 other.val11) (E.f64.div self.val12 other.val12) (E.f64.div self.val13 other.val13)
      (E.f64.div self.val14 other.val14) (E.f64.div self.val15 other.val15)

/-- `operator<` (detail/short_vec_scalar_double_16.hpp:338-358) -/
def opLt (E : FEnv) (self : V) (other : V) : Option Mask := do
  let t1 ← iadd ((b2i (E.f64.lt self.val0 other.val0)) <<< 0) ((b2i (E.f64.lt self.val1 other.val1)) <<< 1)
  let t2 ← iadd t1 ((b2i (E.f64.lt self.val2 other.val2)) <<< 2)
  let t3 ← iadd t2 ((b2i (E.f64.lt self.val3 other.val3)) <<< 3)
  let t4 ← iadd t3 ((b2i (E.f64.lt self.val4 other.val4)) <<< 4)
  let t5 ← iadd t4 ((b2i (E.f64.lt self.val5 other.val5)) <<< 5)
  let t6 ← iadd t5 ((b2i (E.f64.lt self.val6 other.val6)) <<< 6)
  let t7 ← iadd t6 ((b2i (E.f64.lt self.val7 other.val7)) <<< 7)
  let t8 ← iadd t7 ((b2i (E.f64.lt self.val8 other.val8)) <<< 8)
  let t9 ← iadd t8 ((b2i (E.f64.lt self.val9 other.val9)) <<< 9)
  let t10 ← iadd t9 ((b2i (E.f64.lt self.val10 other.val10)) <<< 10)
  let t11 ← iadd t10 ((b2i (E.f64.lt self.val11 other.val11)) <<< 11)
  let t12 ← iadd t11 ((b2i (E.f64.lt self.val12 other.val12)) <<< 12)
  let t13 ← iadd t12 ((b2i (E.f64.lt self.val13 other.val13)) <<< 13)
  let t14 ← iadd t13 ((b2i (E.f64.lt self.val14 other.val14)) <<< 14)
  let t15 ← iadd t14 ((b2i (E.f64.lt self.val15 other.val15)) <<< 15)
  some (t15.setWidth 16)

/-- `operator<=` (detail/short_vec_scalar_double_16.hpp:360-380) -/
def opLe (E : FEnv) (self : V) (other : V) : Option Mask := do
  let t1 ← iadd ((b2i (E.f64.le self.val0 other.val0)) <<< 0) ((b2i (E.f64.le self.val1 other.val1)) <<< 1)
  let t2 ← iadd t1 ((b2i (E.f64.le self.val2 other.val2)) <<< 2)
  let t3 ← iadd t2 ((b2i (E.f64.le self.val3 other.val3)) <<< 3)
  let t4 ← iadd t3 ((b2i (E.f64.le self.val4 other.val4)) <<< 4)
  let t5 ← iadd t4 ((b2i (E.f64.le self.val5 other.val5)) <<< 5)
  let t6 ← iadd t5 ((b2i (E.f64.le self.val6 other.val6)) <<< 6)
  let t7 ← iadd t6 ((b2i (E.f64.le self.val7 other.val7)) <<< 7)
  let t8 ← iadd t7 ((b2i (E.f64.le self.val8 other.val8)) <<< 8)
  let t9 ← iadd t8 ((b2i (E.f64.le self.val9 other.val9)) <<< 9)
  let t10 ← iadd t9 ((b2i (E.f64.le self.val10 other.val10)) <<< 10)
  let t11 ← iadd t10 ((b2i (E.f64.le self.val11 other.val11)) <<< 11)
  let t12 ← iadd t11 ((b2i (E.f64.le self.val12 other.val12)) <<< 12)
  let t13 ← iadd t12 ((b2i (E.f64.le self.val13 other.val13)) <<< 13)
  let t14 ← iadd t13 ((b2i (E.f64.le self.val14 other.val14)) <<< 14)
  let t15 ← iadd t14 ((b2i (E.f64.le self.val15 other.val15)) <<< 15)
  some (t15.setWidth 16)

/-- `operator==` (detail/short_vec_scalar_double_16.hpp:382-402) -/
def opEq (E : FEnv) (self : V) (other : V) : Option Mask := do
  let t1 ← iadd ((b2i (E.f64.eq self.val0 other.val0)) <<< 0) ((b2i (E.f64.eq self.val1 other.val1)) <<< 1)
  let t2 ← iadd t1 ((b2i (E.f64.eq self.val2 other.val2)) <<< 2)
  let t3 ← iadd t2 ((b2i (E.f64.eq self.val3 other.val3)) <<< 3)
  let t4 ← iadd t3 ((b2i (E.f64.eq self.val4 other.val4)) <<< 4)
  let t5 ← iadd t4 ((b2i (E.f64.eq self.val5 other.val5)) <<< 5)
  let t6 ← iadd t5 ((b2i (E.f64.eq self.val6 other.val6)) <<< 6)
  let t7 ← iadd t6 ((b2i (E.f64.eq self.val7 other.val7)) <<< 7)
  let t8 ← iadd t7 ((b2i (E.f64.eq self.val8 other.val8)) <<< 8)
  let t9 ← iadd t8 ((b2i (E.f64.eq self.val9 other.val9)) <<< 9)
  let t10 ← iadd t9 ((b2i (E.f64.eq self.val10 other.val10)) <<< 10)
  let t11 ← iadd t10 ((b2i (E.f64.eq self.val11 other.val11)) <<< 11)
  let t12 ← iadd t11 ((b2i (E.f64.eq self.val12 other.val12)) <<< 12)
  let t13 ← iadd t12 ((b2i (E.f64.eq self.val13 other.val13)) <<< 13)
  let t14 ← iadd t13 ((b2i (E.f64.eq self.val14 other.val14)) <<< 14)
  let t15 ← iadd t14 ((b2i (E.f64.eq self.val15 other.val15)) <<< 15)
  some (t15.setWidth 16)

/-- `operator>` (detail/short_vec_scalar_double_16.hpp:404-424) -/
def opGt (E : FEnv) (self : V) (other : V) : Option Mask := do
  let t1 ← iadd ((b2i (E.f64.gt self.val0 other.val0)) <<< 0) ((b2i (E.f64.gt self.val1 other.val1)) <<< 1)
  let t2 ← iadd t1 ((b2i (E.f64.gt self.val2 other.val2)) <<< 2)
  let t3 ← iadd t2 ((b2i (E.f64.gt self.val3 other.val3)) <<< 3)
  let t4 ← iadd t3 ((b2i (E.f64.gt self.val4 other.val4)) <<< 4)
  let t5 ← iadd t4 ((b2i (E.f64.gt self.val5 other.val5)) <<< 5)
  let t6 ← iadd t5 ((b2i (E.f64.gt self.val6 other.val6)) <<< 6)
  let t7 ← iadd t6 ((b2i (E.f64.gt self.val7 other.val7)) <<< 7)
  let t8 ← iadd t7 ((b2i (E.f64.gt self.val8 other.val8)) <<< 8)
  let t9 ← iadd t8 ((b2i (E.f64.gt self.val9 other.val9)) <<< 9)
  let t10 ← iadd t9 ((b2i (E.f64.gt self.val10 other.val10)) <<< 10)
  let t11 ← iadd t10 ((b2i (E.f64.gt self.val11 other.val11)) <<< 11)
  let t12 ← iadd t11 ((b2i (E.f64.gt self.val12 other.val12)) <<< 12)
  let t13 ← iadd t12 ((b2i (E.f64.gt self.val13 other.val13)) <<< 13)
  let t14 ← iadd t13 ((b2i (E.f64.gt self.val14 other.val14)) <<< 14)
  let t15 ← iadd t14 ((b2i (E.f64.gt self.val15 other.val15)) <<< 15)
  some (t15.setWidth 16)

/-- `operator>=` (detail/short_vec_scalar_double_16.hpp:426-446) -/
def opGe (E : FEnv) (self : V) (other : V) : Option Mask := do
  let t1 ← iadd ((b2i (E.f64.ge self.val0 other.val0)) <<< 0) ((b2i (E.f64.ge self.val1 other.val1)) <<< 1)
  let t2 ← iadd t1 ((b2i (E.f64.ge self.val2 other.val2)) <<< 2)
  let t3 ← iadd t2 ((b2i (E.f64.ge self.val3 other.val3)) <<< 3)
  let t4 ← iadd t3 ((b2i (E.f64.ge self.val4 other.val4)) <<< 4)
  let t5 ← iadd t4 ((b2i (E.f64.ge self.val5 other.val5)) <<< 5)
  let t6 ← iadd t5 ((b2i (E.f64.ge self.val6 other.val6)) <<< 6)
  let t7 ← iadd t6 ((b2i (E.f64.ge self.val7 other.val7)) <<< 7)
  let t8 ← iadd t7 ((b2i (E.f64.ge self.val8 other.val8)) <<< 8)
  let t9 ← iadd t8 ((b2i (E.f64.ge self.val9 other.val9)) <<< 9)
  let t10 ← iadd t9 ((b2i (E.f64.ge self.val10 other.val10)) <<< 10)
  let t11 ← iadd t10 ((b2i (E.f64.ge self.val11 other.val11)) <<< 11)
  let t12 ← iadd t11 ((b2i (E.f64.ge self.val12 other.val12)) <<< 12)
  let t13 ← iadd t12 ((b2i (E.f64.ge self.val13 other.val13)) <<< 13)
  let t14 ← iadd t13 ((b2i (E.f64.ge self.val14 other.val14)) <<< 14)
  let t15 ← iadd t14 ((b2i (E.f64.ge self.val15 other.val15)) <<< 15)
  some (t15.setWidth 16)

/-- `load_aligned` (detail/short_vec_scalar_double_16.hpp:500-504) -/
def load_aligned (E : FEnv) (m : Mem 64) (self : V) (data : Int) : Option V := do
  let v1 ← load E m self data
  some ⟨v1.val0, v1.val1, v1.val2, v1.val3, v1.val4, v1.val5, v1.val6, v1.val7, v1.val8, v1.val9, v1.val10, v1.val11, v1.val12,
      v1.val13, v1.val14, v1.val15⟩

/-- `store_aligned` (detail/short_vec_scalar_double_16.hpp:527-531) -/
def store_aligned (E : FEnv) (self : V) (data : Int) : Option (Writes 64) := do
  let w1 ← store E self data
  some w1

/-- `store_nt` (detail/short_vec_scalar_double_16.hpp:533-537) -/
def store_nt (E : FEnv) (self : V) (data : Int) : Option (Writes 64) := do
  let w1 ← store E self data
  some w1

/-- `gather` (detail/short_vec_scalar_double_16.hpp:539-558) -/
def gather (E : FEnv) (m : Mem 64) (mo : Mem 32) (self : V) (ptr : Int) (offsets : Int) : Option V := do
  let t1 ← mo (offsets + 0)
  let t2 ← m (ptr + t1.toInt)
  let val0 : BitVec 64 := t2
  let t3 ← mo (offsets + 1)
  let t4 ← m (ptr + t3.toInt)
  let val1 : BitVec 64 := t4
  let t5 ← mo (offsets + 2)
  let t6 ← m (ptr + t5.toInt)
  let val2 : BitVec 64 := t6
  let t7 ← mo (offsets + 3)
  let t8 ← m (ptr + t7.toInt)
  let val3 : BitVec 64 := t8
  let t9 ← mo (offsets + 4)
  let t10 ← m (ptr + t9.toInt)
  let val4 : BitVec 64 := t10
  let t11 ← mo (offsets + 5)
  let t12 ← m (ptr + t11.toInt)
  let val5 : BitVec 64 := t12
  let t13 ← mo (offsets + 6)
  let t14 ← m (ptr + t13.toInt)
  let val6 : BitVec 64 := t14
  let t15 ← mo (offsets + 7)
  let t16 ← m (ptr + t15.toInt)
  let val7 : BitVec 64 := t16
  let t17 ← mo (offsets + 8)
  let t18 ← m (ptr + t17.toInt)
  let val8 : BitVec 64 := t18
  let t19 ← mo (offsets + 9)
  let t20 ← m (ptr + t19.toInt)
  let val9 : BitVec 64 := t20
  let t21 ← mo (offsets + 10)
  let t22 ← m (ptr + t21.toInt)
  let val10 : BitVec 64 := t22
  let t23 ← mo (offsets + 11)
  let t24 ← m (ptr + t23.toInt)
  let val11 : BitVec 64 := t24
  let t25 ← mo (offsets + 12)
  let t26 ← m (ptr + t25.toInt)
  let val12 : BitVec 64 := t26
  let t27 ← mo (offsets + 13)
  let t28 ← m (ptr + t27.toInt)
  let val13 : BitVec 64 := t28
  let t29 ← mo (offsets + 14)
  let t30 ← m (ptr + t29.toInt)
  let val14 : BitVec 64 := t30
  let t31 ← mo (offsets + 15)
  let t32 ← m (ptr + t31.toInt)
  let val15 : BitVec 64 := t32
  some ⟨val0, val1, val2, val3, val4, val5, val6, val7, val8, val9, val10, val11, val12, val13, val14, val15⟩

/-- `scatter` (detail/short_vec_scalar_double_16.hpp:560-579) -/
def scatter (E : FEnv) (mo : Mem 32) (self : V) (ptr : Int) (offsets : Int) : Option (Writes 64) := do
  let t1 ← mo (offsets + 0)
  let t2 ← mo (offsets + 1)
  let t3 ← mo (offsets + 2)
  let t4 ← mo (offsets + 3)
  let t5 ← mo (offsets + 4)
  let t6 ← mo (offsets + 5)
  let t7 ← mo (offsets + 6)
  let t8 ← mo (offsets + 7)
  let t9 ← mo (offsets + 8)
  let t10 ← mo (offsets + 9)
  let t11 ← mo (offsets + 10)
  let t12 ← mo (offsets + 11)
  let t13 ← mo (offsets + 12)
  let t14 ← mo (offsets + 13)
  let t15 ← mo (offsets + 14)
  let t16 ← mo (offsets + 15)
  some ([(ptr + t1.toInt, self.val0)] ++ [(ptr + t2.toInt, self.val1)] ++ [(ptr + t3.toInt, self.val2)] ++ [(ptr + t4.toInt,
      self.val3)] ++ [(ptr + t5.toInt, self.val4)] ++ [(ptr + t6.toInt, self.val5)] ++ [(ptr + t7.toInt, self.val6)] ++ [(ptr +
      t8.toInt, self.val7)] ++ [(ptr + t9.toInt, self.val8)] ++ [(ptr + t10.toInt, self.val9)] ++ [(ptr + t11.toInt,
      self.val10)] ++ [(ptr + t12.toInt, self.val11)] ++ [(ptr + t13.toInt, self.val12)] ++ [(ptr + t14.toInt, self.val13)] ++
      [(ptr + t15.toInt, self.val14)] ++ [(ptr + t16.toInt, self.val15)])

/-- `blend` (detail/short_vec_scalar_double_16.hpp:581-632) -/
def blend (E : FEnv) (self : V) (mask : Mask) (other : V) : V :=
  let val0 : BitVec 64 := if ((promote mask) &&& (1 : BitVec 32)) != 0 then other.val0 else self.val0
  let val1 : BitVec 64 := if ((promote mask) &&& (2 : BitVec 32)) != 0 then other.val1 else self.val1
  let val2 : BitVec 64 := if ((promote mask) &&& (4 : BitVec 32)) != 0 then other.val2 else self.val2
  let val3 : BitVec 64 := if ((promote mask) &&& (8 : BitVec 32)) != 0 then other.val3 else self.val3
  let val4 : BitVec 64 := if ((promote mask) &&& (16 : BitVec 32)) != 0 then other.val4 else self.val4
  let val5 : BitVec 64 := if ((promote mask) &&& (32 : BitVec 32)) != 0 then other.val5 else self.val5
  let val6 : BitVec 64 := if ((promote mask) &&& (64 : BitVec 32)) != 0 then other.val6 else self.val6
  let val7 : BitVec 64 := if ((promote mask) &&& (128 : BitVec 32)) != 0 then other.val7 else self.val7
  let val8 : BitVec 64 := if ((promote mask) &&& (256 : BitVec 32)) != 0 then other.val8 else self.val8
  let val9 : BitVec 64 := if ((promote mask) &&& (512 : BitVec 32)) != 0 then other.val9 else self.val9
  let val10 : BitVec 64 := if ((promote mask) &&& (1024 : BitVec 32)) != 0 then other.val10 else self.val10
  let val11 : BitVec 64 := if ((promote mask) &&& (2048 : BitVec 32)) != 0 then other.val11 else self.val11
  let val12 : BitVec 64 := if ((promote mask) &&& (4096 : BitVec 32)) != 0 then other.val12 else self.val12
  let val13 : BitVec 64 := if ((promote mask) &&& (8192 : BitVec 32)) != 0 then other.val13 else self.val13
  let val14 : BitVec 64 := if ((promote mask) &&& (16384 : BitVec 32)) != 0 then other.val14 else self.val14
  let val15 : BitVec 64 := if ((promote mask) &&& (32768 : BitVec 32)) != 0 then other.val15 else self.val15
  ⟨val0, val1, val2, val3, val4, val5, val6, val7, val8, val9, val10, val11, val12, val13, val14, val15⟩

/-- `operator<<`, free function (detail/short_vec_scalar_double_16.hpp:638-642) -/
def opStore (E : FEnv) (data : Int) (vec : V) : Option (Writes 64) := do
  let w1 ← store E vec data
  some w1

/-- `sqrt`, free function (detail/short_vec_scalar_double_16.hpp:648-652) -/
def sqrtFn (E : FEnv) (vec : V) : V := sqrt E vec

/-- `operator<<`, free function (detail/short_vec_scalar_double_16.hpp:660-671) -/
def print (E : FEnv) (vec : V) : List (Out 64) :=
  [.s "[", .v vec.val0, .s ", ", .v vec.val1, .s ", ", .v vec.val2, .s ", ", .v vec.val3, .s ", ", .v vec.val4, .s ", ", .v
      vec.val5, .s ", ", .v vec.val6, .s ", ", .v vec.val7, .s ", ", .v vec.val8, .s ", ", .v vec.val9, .s ", ", .v vec.val10,
      .s ", ", .v vec.val11, .s ", ", .v vec.val12, .s ", ", .v vec.val13, .s ", ", .v vec.val14, .s ", ", .v vec.val15, .s "]"]

end LFA.SV.ScalarDouble16

namespace LFA.SV.ScalarDouble32

/-- members of `short_vec<double, 32>` (detail/short_vec_scalar_double_32.hpp:53) -/
structure V where
  val0 : BitVec 64
  val1 : BitVec 64
  val2 : BitVec 64
  val3 : BitVec 64
  val4 : BitVec 64
  val5 : BitVec 64
  val6 : BitVec 64
  val7 : BitVec 64
  val8 : BitVec 64
  val9 : BitVec 64
  val10 : BitVec 64
  val11 : BitVec 64
  val12 : BitVec 64
  val13 : BitVec 64
  val14 : BitVec 64
  val15 : BitVec 64
  val16 : BitVec 64
  val17 : BitVec 64
  val18 : BitVec 64
  val19 : BitVec 64
  val20 : BitVec 64
  val21 : BitVec 64
  val22 : BitVec 64
  val23 : BitVec 64
  val24 : BitVec 64
  val25 : BitVec 64
  val26 : BitVec 64
  val27 : BitVec 64
  val28 : BitVec 64
  val29 : BitVec 64
  val30 : BitVec 64
  val31 : BitVec 64

/-- lanes, from low to high -/
def V.lanes (v : V) : List (BitVec 64) := [v.val0, v.val1, v.val2, v.val3, v.val4, v.val5, v.val6, v.val7, v.val8, v.val9,
    v.val10, v.val11, v.val12, v.val13, v.val14, v.val15, v.val16, v.val17, v.val18, v.val19, v.val20, v.val21, v.val22,
    v.val23, v.val24, v.val25, v.val26, v.val27, v.val28, v.val29, v.val30, v.val31]

/-- `mask_type` -/
abbrev Mask := BitVec 32

/-- constructor (detail/short_vec_scalar_double_32.hpp:65-99) -/
def bcast (E : FEnv) (data : BitVec 64) : V :=
  ⟨data, data, data, data, data, data, data, data, data, data, data, data, data, data, data, data, data, data, data, data,
      data, data, data, data, data, data, data, data, data, data, data, data⟩

/-- constructor (detail/short_vec_scalar_double_32.hpp:107-173) -/
def ofRegs (E : FEnv) (val1 : BitVec 64) (val2 : BitVec 64) (val3 : BitVec 64) (val4 : BitVec 64) (val5 : BitVec 64) (val6 :
    BitVec 64) (val7 : BitVec 64) (val8 : BitVec 64) (val9 : BitVec 64) (val10 : BitVec 64) (val11 : BitVec 64) (val12 : BitVec
    64) (val13 : BitVec 64) (val14 : BitVec 64) (val15 : BitVec 64) (val16 : BitVec 64) (val17 : BitVec 64) (val18 : BitVec 64)
    (val19 : BitVec 64) (val20 : BitVec 64) (val21 : BitVec 64) (val22 : BitVec 64) (val23 : BitVec 64) (val24 : BitVec 64)
    (val25 : BitVec 64) (val26 : BitVec 64) (val27 : BitVec 64) (val28 : BitVec 64) (val29 : BitVec 64) (val30 : BitVec 64)
    (val31 : BitVec 64) (val32 : BitVec 64) : V :=
  ⟨val1, val2, val3, val4, val5, val6, val7, val8, val9, val10, val11, val12, val13, val14, val15, val16, val17, val18, val19,
      val20, val21, val22, val23, val24, val25, val26, val27, val28, val29, val30, val31, val32⟩

/-- `load` (detail/short_vec_scalar_double_32.hpp:766-801) -/
def load (E : FEnv) (m : Mem 64) (self : V) (data : Int) : Option V := do
  let t1 ← m (data + 0)
  let val0 : BitVec 64 := t1
  let t2 ← m (data + 1)
  let val1 : BitVec 64 := t2
  let t3 ← m (data + 2)
  let val2 : BitVec 64 := t3
  let t4 ← m (data + 3)
  let val3 : BitVec 64 := t4
  let t5 ← m (data + 4)
  let val4 : BitVec 64 := t5
  let t6 ← m (data + 5)
  let val5 : BitVec 64 := t6
  let t7 ← m (data + 6)
  let val6 : BitVec 64 := t7
  let t8 ← m (data + 7)
  let val7 : BitVec 64 := t8
  let t9 ← m (data + 8)
  let val8 : BitVec 64 := t9
  let t10 ← m (data + 9)
  let val9 : BitVec 64 := t10
  let t11 ← m (data + 10)
  let val10 : BitVec 64 := t11
  let t12 ← m (data + 11)
  let val11 : BitVec 64 := t12
  let t13 ← m (data + 12)
  let val12 : BitVec 64 := t13
  let t14 ← m (data + 13)
  let val13 : BitVec 64 := t14
  let t15 ← m (data + 14)
  let val14 : BitVec 64 := t15
  let t16 ← m (data + 15)
  let val15 : BitVec 64 := t16
  let t17 ← m (data + 16)
  let val16 : BitVec 64 := t17
  let t18 ← m (data + 17)
  let val17 : BitVec 64 := t18
  let t19 ← m (data + 18)
  let val18 : BitVec 64 := t19
  let t20 ← m (data + 19)
  let val19 : BitVec 64 := t20
  let t21 ← m (data + 20)
  let val20 : BitVec 64 := t21
  let t22 ← m (data + 21)
  let val21 : BitVec 64 := t22
  let t23 ← m (data + 22)
  let val22 : BitVec 64 := t23
  let t24 ← m (data + 23)
  let val23 : BitVec 64 := t24
  let t25 ← m (data + 24)
  let val24 : BitVec 64 := t25
  let t26 ← m (data + 25)
  let val25 : BitVec 64 := t26
  let t27 ← m (data + 26)
  let val26 : BitVec 64 := t27
  let t28 ← m (data + 27)
  let val27 : BitVec 64 := t28
  let t29 ← m (data + 28)
  let val28 : BitVec 64 := t29
  let t30 ← m (data + 29)
  let val29 : BitVec 64 := t30
  let t31 ← m (data + 30)
  let val30 : BitVec 64 := t31
  let t32 ← m (data + 31)
  let val31 : BitVec 64 := t32
  some ⟨val0, val1, val2, val3, val4, val5, val6, val7, val8, val9, val10, val11, val12, val13, val14, val15, val16, val17,
      val18, val19, val20, val21, val22, val23, val24, val25, val26, val27, val28, val29, val30, val31⟩

/-- `store` (detail/short_vec_scalar_double_32.hpp:809-844) -/
def store (E : FEnv) (self : V) (data : Int) : Option (Writes 64) :=
  some ([(data + 0, self.val0)] ++ [(data + 1, self.val1)] ++ [(data + 2, self.val2)] ++ [(data + 3, self.val3)] ++ [(data + 4,
      self.val4)] ++ [(data + 5, self.val5)] ++ [(data + 6, self.val6)] ++ [(data + 7, self.val7)] ++ [(data + 8, self.val8)]
      ++ [(data + 9, self.val9)] ++ [(data + 10, self.val10)] ++ [(data + 11, self.val11)] ++ [(data + 12, self.val12)] ++
      [(data + 13, self.val13)] ++ [(data + 14, self.val14)] ++ [(data + 15, self.val15)] ++ [(data + 16, self.val16)] ++
      [(data + 17, self.val17)] ++ [(data + 18, self.val18)] ++ [(data + 19, self.val19)] ++ [(data + 20, self.val20)] ++
      [(data + 21, self.val21)] ++ [(data + 22, self.val22)] ++ [(data + 23, self.val23)] ++ [(data + 24, self.val24)] ++
      [(data + 25, self.val25)] ++ [(data + 26, self.val26)] ++ [(data + 27, self.val27)] ++ [(data + 28, self.val28)] ++
      [(data + 29, self.val29)] ++ [(data + 30, self.val30)] ++ [(data + 31, self.val31)])

/-- `sqrt` (detail/short_vec_scalar_double_32.hpp:725-761) -/
def sqrt (E : FEnv) (self : V) : V :=
  ofRegs E (E.f64.sqrt self.val0) (E.f64.sqrt self.val1) (E.f64.sqrt self.val2) (E.f64.sqrt self.val3) (E.f64.sqrt self.val4)
      (E.f64.sqrt self.val5) (E.f64.sqrt self.val6) (E.f64.sqrt self.val7) (E.f64.sqrt self.val8) (E.f64.sqrt self.val9)
      (E.f64.sqrt self.val10) (E.f64.sqrt self.val11) (E.f64.sqrt self.val12) (E.f64.sqrt self.val13) (E.f64.sqrt self.val14)
      (E.f64.sqrt self.val15) (E.f64.sqrt self.val16) (E.f64.sqrt self.val17) (E.f64.sqrt self.val18) (E.f64.sqrt self.val19)
      (E.f64.sqrt self.val20) (E.f64.sqrt self.val21) (E.f64.sqrt self.val22) (E.f64.sqrt self.val23) (E.f64.sqrt self.val24)
      (E.f64.sqrt self.val25) (E.f64.sqrt self.val26) (E.f64.sqrt self.val27) (E.f64.sqrt self.val28) (E.f64.sqrt self.val29)
      (E.f64.sqrt self.val30) (E.f64.sqrt self.val31)

/-- constructor (detail/short_vec_scalar_double_32.hpp:101-105) -/
def ofPtr (E : FEnv) (m : Mem 64) (data : Int) : Option V := do
  let v1 ← load E m ⟨(uninit : BitVec 64), (uninit : BitVec 64), (uninit : BitVec 64), (uninit : BitVec 64), (uninit : BitVec
      64), (uninit : BitVec 64), (uninit : BitVec 64), (uninit : BitVec 64), (uninit : BitVec 64), (uninit : BitVec 64),
      (uninit : BitVec 64), (uninit : BitVec 64), (uninit : BitVec 64), (uninit : BitVec 64), (uninit : BitVec 64), (uninit :
      BitVec 64), (uninit : BitVec 64), (uninit : BitVec 64), (uninit : BitVec 64), (uninit : BitVec 64), (uninit : BitVec 64),
      (uninit : BitVec 64), (uninit : BitVec 64), (uninit : BitVec 64), (uninit : BitVec 64), (uninit : BitVec 64), (uninit :
      BitVec 64), (uninit : BitVec 64), (uninit : BitVec 64), (uninit : BitVec 64), (uninit : BitVec 64), (uninit : BitVec 64)⟩
      data
  some ⟨v1.val0, v1.val1, v1.val2, v1.val3, v1.val4, v1.val5, v1.val6, v1.val7, v1.val8, v1.val9, v1.val10, v1.val11, v1.val12,
      v1.val13, v1.val14, v1.val15, v1.val16, v1.val17, v1.val18, v1.val19, v1.val20, v1.val21, v1.val22, v1.val23, v1.val24,
      v1.val25, v1.val26, v1.val27, v1.val28, v1.val29, v1.val30, v1.val31⟩

/-- constructor (detail/short_vec_scalar_double_32.hpp:176-181) -/
def ofList (E : FEnv) (m : Mem 64) (il : Int) : Option V := do
  let v1 ← load E m ⟨(uninit : BitVec 64), (uninit : BitVec 64), (uninit : BitVec 64), (uninit : BitVec 64), (uninit : BitVec
      64), (uninit : BitVec 64), (uninit : BitVec 64), (uninit : BitVec 64), (uninit : BitVec 64), (uninit : BitVec 64),
      (uninit : BitVec 64), (uninit : BitVec 64), (uninit : BitVec 64), (uninit : BitVec 64), (uninit : BitVec 64), (uninit :
      BitVec 64), (uninit : BitVec 64), (uninit : BitVec 64), (uninit : BitVec 64), (uninit : BitVec 64), (uninit : BitVec 64),
      (uninit : BitVec 64), (uninit : BitVec 64), (uninit : BitVec 64), (uninit : BitVec 64), (uninit : BitVec 64), (uninit :
      BitVec 64), (uninit : BitVec 64), (uninit : BitVec 64), (uninit : BitVec 64), (uninit : BitVec 64), (uninit : BitVec 64)⟩
      il
  some ⟨v1.val0, v1.val1, v1.val2, v1.val3, v1.val4, v1.val5, v1.val6, v1.val7, v1.val8, v1.val9, v1.val10, v1.val11, v1.val12,
      v1.val13, v1.val14, v1.val15, v1.val16, v1.val17, v1.val18, v1.val19, v1.val20, v1.val21, v1.val22, v1.val23, v1.val24,
      v1.val25, v1.val26, v1.val27, v1.val28, v1.val29, v1.val30, v1.val31⟩

/-- `any` (detail/short_vec_scalar_double_32.hpp:184-220) -/
def any (E : FEnv) (self : V) : Bool :=
  (((((((((((((((((((((((((((((((truthy self.val0) || (truthy self.val1)) || (truthy self.val2)) || (truthy self.val3)) ||
      (truthy self.val4)) || (truthy self.val5)) || (truthy self.val6)) || (truthy self.val7)) || (truthy self.val8)) ||
      (truthy self.val9)) || (truthy self.val10)) || (truthy self.val11)) || (truthy self.val12)) || (truthy self.val13)) ||
      (truthy self.val14)) || (truthy self.val15)) || (truthy self.val16)) || (truthy self.val17)) || (truthy self.val18)) ||
      (truthy self.val19)) || (truthy self.val20)) || (truthy self.val21)) || (truthy self.val22)) || (truthy self.val23)) ||
      (truthy self.val24)) || (truthy self.val25)) || (truthy self.val26)) || (truthy self.val27)) || (truthy self.val28)) ||
      (truthy self.val29)) || (truthy self.val30)) || (truthy self.val31)

/-- `operator[]` (detail/short_vec_scalar_double_32.hpp:222-226) -/
def opIndex (E : FEnv) (self : V) (i : BitVec 32) : Option (BitVec 64) := do
  let t1 ← dyn [self.val0, self.val1, self.val2, self.val3, self.val4, self.val5, self.val6, self.val7, self.val8, self.val9,
      self.val10, self.val11, self.val12, self.val13, self.val14, self.val15, self.val16, self.val17, self.val18, self.val19,
      self.val20, self.val21, self.val22, self.val23, self.val24, self.val25, self.val26, self.val27, self.val28, self.val29,
      self.val30, self.val31] i
  some t1

/-- `operator-=` (detail/short_vec_scalar_double_32.hpp:228-263) -/
def opSubAssign (E : FEnv) (self : V) (other : V) : V :=
  let val0 : BitVec 64 := E.f64.sub self.val0 other.val0
  let val1 : BitVec 64 := E.f64.sub self.val1 other.val1
  let val2 : BitVec 64 := E.f64.sub self.val2 other.val2
  let val3 : BitVec 64 := E.f64.sub self.val3 other.val3
  let val4 : BitVec 64 := E.f64.sub self.val4 other.val4
  let val5 : BitVec 64 := E.f64.sub self.val5 other.val5
  let val6 : BitVec 64 := E.f64.sub self.val6 other.val6
  let val7 : BitVec 64 := E.f64.sub self.val7 other.val7
  let val8 : BitVec 64 := E.f64.sub self.val8 other.val8
  let val9 : BitVec 64 := E.f64.sub self.val9 other.val9
  let val10 : BitVec 64 := E.f64.sub self.val10 other.val10
  let val11 : BitVec 64 := E.f64.sub self.val11 other.val11
  let val12 : BitVec 64 := E.f64.sub self.val12 other.val12
  let val13 : BitVec 64 := E.f64.sub self.val13 other.val13
  let val14 : BitVec 64 := E.f64.sub self.val14 other.val14
  let val15 : BitVec 64 := E.f64.sub self.val15 other.val15
  let val16 : BitVec 64 := E.f64.sub self.val16 other.val16
  let val17 : BitVec 64 := E.f64.sub self.val17 other.val17
  let val18 : BitVec 64 := E.f64.sub self.val18 other.val18
  let val19 : BitVec 64 := E.f64.sub self.val19 other.val19
  let val20 : BitVec 64 := E.f64.sub self.val20 other.val20
  let val21 : BitVec 64 := E.f64.sub self.val21 other.val21
  let val22 : BitVec 64 := E.f64.sub self.val22 other.val22
  let val23 : BitVec 64 := E.f64.sub self.val23 other.val23
  let val24 : BitVec 64 := E.f64.sub self.val24 other.val24
  let val25 : BitVec 64 := E.f64.sub self.val25 other.val25
  let val26 : BitVec 64 := E.f64.sub self.val26 other.val26
  let val27 : BitVec 64 := E.f64.sub self.val27 other.val27
  let val28 : BitVec 64 := E.f64.sub self.val28 other.val28
  let val29 : BitVec 64 := E.f64.sub self.val29 other.val29
  let val30 : BitVec 64 := E.f64.sub self.val30 other.val30
  let val31 : BitVec 64 := E.f64.sub self.val31 other.val31
  ⟨val0, val1, val2, val3, val4, val5, val6, val7, val8, val9, val10, val11, val12, val13, val14, val15, val16, val17, val18,
      val19, val20, val21, val22, val23, val24, val25, val26, val27, val28, val29, val30, val31⟩

/-- `operator-` (detail/short_vec_scalar_double_32.hpp:265-301) -/
def opSub (E : FEnv) (self : V) (other : V) : V :=
  ofRegs E (E.f64.sub self.val0 other.val0) (E.f64.sub self.val1 other.val1) (E.f64.sub self.val2 other.val2) (E.f64.sub
      self.val3 other.val3) (E.f64.sub self.val4 other.val4) (E.f64.sub self.val5 other.val5) (E.f64.sub self.val6 other.val6)
      (E.f64.sub self.val7 other.val7) (E.f64.sub self.val8 other.val8) (E.f64.sub self.val9 other.val9) (E.f64.sub self.val10
      other.val10) (E.f64.sub self.val11 other.val11) (E.f64.sub self.val12 other.val12) (E.f64.sub self.val13 other.val13)
      (E.f64.sub self.val14 other.val14) (E.f64.sub self.val15 other.val15) (E.f64.sub self.val16 other.val16) (E.f64.sub
      self.val17 other.val17) (E.f64.sub self.val18 other.val18) (E.f64.sub self.val19 other.val19) (E.f64.sub self.val20
      other.val20) (E.f64.sub self.val21 other.val21) (E.f64.sub self.val22 other.val22) (E.f64.sub self.val23 other.val23)
      (E.f64.sub self.val24 other.val24) (E.f64.sub self.val25 other.val25) (E.f64.sub self.val26 other.val26) (E.f64.sub
      self.val27 other.val27) (E.f64.sub self.val28 other.val28) (E.f64.sub self.val29 other.val29) (E.f64.sub self.val30
      other.val30) (E.f64.sub self.val31 other.val31)

/-- `operator+=` (detail/short_vec_scalar_double_32.hpp:303-338) -/
def opAddAssign (E : FEnv) (self : V) (other : V) : V :=
  let val0 : BitVec 64 := E.f64.add self.val0 other.val0
  let val1 : BitVec 64 := E.f64.add self.val1 other.val1
  let val2 : BitVec 64 := E.f64.add self.val2 other.val2
  let val3 : BitVec 64 := E.f64.add self.val3 other.val3
  let val4 : BitVec 64 := E.f64.add self.val4 other.val4
  let val5 : BitVec 64 := E.f64.add self.val5 other.val5
  let val6 : BitVec 64 := E.f64.add self.val6 other.val6
  let val7 : BitVec 64 := E.f64.add self.val7 other.val7
  let val8 : BitVec 64 := E.f64.add self.val8 other.val8
  let val9 : BitVec 64 := E.f64.add self.val9 other.val9
  let val10 : BitVec 64 := E.f64.add self.val10 other.val10
  let val11 : BitVec 64 := E.f64.add self.val11 other.val11
  let val12 : BitVec 64 := E.f64.add self.val12 other.val12
  let val13 : BitVec 64 := E.f64.add self.val13 other.val13
  let val14 : BitVec 64 := E.f64.add self.val14 other.val14
  let val15 : BitVec 64 := E.f64.add self.val15 other.val15
  let val16 : BitVec 64 := E.f64.add self.val16 other.val16
  let val17 : BitVec 64 := E.f64.add self.val17 other.val17
  let val18 : BitVec 64 := E.f64.add self.val18 other.val18
  let val19 : BitVec 64 := E.f64.add self.val19 other.val19
  let val20 : BitVec 64 := E.f64.add self.val20 other.val20
  let val21 : BitVec 64 := E.f64.add self.val21 other.val21
  let val22 : BitVec 64 := E.f64.add self.val22 other.val22
  let val23 : BitVec 64 := E.f64.add self.val23 other.val23
  let val24 : BitVec 64 := E.f64.add self.val24 other.val24
  let val25 : BitVec 64 := E.f64.add self.val25 other.val25
  let val26 : BitVec 64 := E.f64.add self.val26 other.val26
  let val27 : BitVec 64 := E.f64.add self.val27 other.val27
  let val28 : BitVec 64 := E.f64.add self.val28 other.val28
  let val29 : BitVec 64 := E.f64.add self.val29 other.val29
  let val30 : BitVec 64 := E.f64.add self.val30 other.val30
  let val31 : BitVec 64 := E.f64.add self.val31 other.val31
  ⟨val0, val1, val2, val3, val4, val5, val6, val7, val8, val9, val10, val11, val12, val13, val14, val15, val16, val17, val18,
      val19, val20, val21, val22, val23, val24, val25, val26, val27, val28, val29, val30, val31⟩

/-- `operator+` (detail/short_vec_scalar_double_32.hpp:340-376) -/
def opAdd (E : FEnv) (self : V) (other : V) : V :=
  ofRegs E (E.f64.add self.val0 other.val0) (E.f64.add self.val1 other.val1) (E.f64.add self.val2 other.val2) (E.f64.add
      self.val3 other.val3) (E.f64.add self.val4 other.val4) (E.f64.add self.val5 other.val5) (E.f64.add self.val6 other.val6)
      (E.f64.add self.val7 other.val7) (E.f64.add self.val8 other.val8) (E.f64.add self.val9 other.val9) (E.f64.add self.val10
      other.val10) (E.f64.add self.val11 other.val11) (E.f64.add self.val12 other.val12) (E.f64.add self.val13 other.val13)
      (E.f64.add self.val14 other.val14) (E.f64.add self.val15 other.val15) (E.f64.add self.val16 other.val16) (E.f64.add
      self.val17 other.val17) (E.f64.add self.val18 other.val18) (E.f64.add self.val19 other.val19) (E.f64.add self.val20
      other.val20) (E.f64.add self.val21 other.val21) (E.f64.add self.val22 other.val22) (E.f64.add self.val23 other.val23)
      (E.f64.add self.val24 other.val24) (E.f64.add self.val25 other.val25) (E.f64.add self.val26 other.val26) (E.f64.add
      self.val27 other.val27) (E.f64.add self.val28 other.val28) (E.f64.add self.val29 other.val29) (E.f64.add self.val30
      other.val30) (E.f64.add self.val31 other.val31)

/-- `operator*=` (detail/short_vec_scalar_double_32.hpp:378-413) -/
def opMulAssign (E : FEnv) (self : V) (other : V) : V :=
  let val0 : BitVec 64 := E.f64.mul self.val0 other.val0
  let val1 : BitVec 64 := E.f64.mul self.val1 other.val1
  let val2 : BitVec 64 := E.f64.mul self.val2 other.val2
  let val3 : BitVec 64 := E.f64.mul self.val3 other.val3
  let val4 : BitVec 64 := E.f64.mul self.val4 other.val4
  let val5 : BitVec 64 := E.f64.mul self.val5 other.val5
  let val6 : BitVec 64 := E.f64.mul self.val6 other.val6
  let val7 : BitVec 64 := E.f64.mul self.val7 other.val7
  let val8 : BitVec 64 := E.f64.mul self.val8 other.val8
  let val9 : BitVec 64 := E.f64.mul self.val9 other.val9
  let val10 : BitVec 64 := E.f64.mul self.val10 other.val10
  let val11 : BitVec 64 := E.f64.mul self.val11 other.val11
  let val12 : BitVec 64 := E.f64.mul self.val12 other.val12
  let val13 : BitVec 64 := E.f64.mul self.val13 other.val13
  let val14 : BitVec 64 := E.f64.mul self.val14 other.val14
  let val15 : BitVec 64 := E.f64.mul self.val15 other.val15
  let val16 : BitVec 64 := E.f64.mul self.val16 other.val16
  let val17 : BitVec 64 := E.f64.mul self.val17 other.val17
  let val18 : BitVec 64 := E.f64.mul self.val18 other.val18
  let val19 : BitVec 64 := E.f64.mul self.val19 other.val19
  let val20 : BitVec 64 := E.f64.mul self.val20 other.val20
  let val21 : BitVec 64 := E.f64.mul self.val21 other.val21
  let val22 : BitVec 64 := E.f64.mul self.val22 other.val22
  let val23 : BitVec 64 := E.f64.mul self.val23 other.val23
  let val24 : BitVec 64 := E.f64.mul self.val24 other.val24
  let val25 : BitVec 64 := E.f64.mul self.val25 other.val25
  let val26 : BitVec 64 := E.f64.mul self.val26 other.val26
  let val27 : BitVec 64 := E.f64.mul self.val27 other.val27
  let val28 : BitVec 64 := E.f64.mul self.val28 other.val28
  let val29 : BitVec 64 := E.f64.mul self.val29 other.val29
  let val30 : BitVec 64 := E.f64.mul self.val30 other.val30
  let val31 : BitVec 64 := E.f64.mul self.val31 other.val31
  ⟨val0, val1, val2, val3, val4, val5, val6, val7, val8, val9, val10, val11, val12, val13, val14, val15, val16, val17, val18,
      val19, val20, val21, val22, val23, val24, val25, val26, val27, val28, val29, val30, val31⟩

/-- `operator*` (detail/short_vec_scalar_double_32.hpp:415-451) -/
def opMul (E : FEnv) (self : V) (other : V) : V :=
  ofRegs E (E.f64.mul self.val0 other.val0) (E.f64.mul self.val1 other.val1) (E.f64.mul self.val2 other.val2) (E.f64.mul
      self.val3 other.val3) (E.f64.mul self.val4 other.val4) (E.f64.mul self.val5 other.val5) (E.f64.mul self.val6 other.val6)
      (E.f64.mul self.val7 other.val7) (E.f64.mul self.val8 other.val8) (E.f64.mul self.val9 other.val9) (E.f64.mul self.val10
      other.val10) (E.f64.mul self.val11 other.val11) (E.f64.mul self.val12 other.val12) (E.f64.mul self.val13 other.val13)
      (E.f64.mul self.val14 other.val14) (E.f64.mul self.val15 other.val15) (E.f64.mul self.val16 other.val16) (E.f64.mul
      self.val17 other.val17) (E.f64.mul self.val18 other.val18) (E.f64.mul self.val19 other.val19) (E.f64.mul self.val20
      other.val20) (E.f64.mul self.val21 other.val21) (E.f64.mul self.val22 other.val22) (E.f64.mul self.val23 other.val23)
      (E.f64.mul self.val24 other.val24) (E.f64.mul self.val25 other.val25) (E.f64.mul self.val26 other.val26) (E.f64.mul
      self.val27 other.val27) (E.f64.mul self.val28 other.val28) (E.f64.mul self.val29 other.val29) (E.f64.mul self.val30
      other.val30) (E.f64.mul self.val31 other.val31)

/-- `operator/=` (detail/short_vec_scalar_double_32.hpp:453-488) -/
def opDivAssign (E : FEnv) (self : V) (other : V) : V :=
  let val0 : BitVec 64 := E.f64.div self.val0 other.val0
  let val1 : BitVec 64 := E.f64.div self.val1 other.val1
  let val2 : BitVec 64 := E.f64.div self.val2 other.val2
  let val3 : BitVec 64 := E.f64.div self.val3 other.val3
  let val4 : BitVec 64 := E.f64.div self.val4 other.val4
  let val5 : BitVec 64 := E.f64.div self.val5 other.val5
  let val6 : BitVec 64 := E.f64.div self.val6 other.val6
  let val7 : BitVec 64 := E.f64.div self.val7 other.val7
  let val8 : BitVec 64 := E.f64.div self.val8 other.val8
  let val9 : BitVec 64 := E.f64.div self.val9 other.val9
  let val10 : BitVec 64 := E.f64.div self.val10 other.val10
  let val11 : BitVec 64 := E.f64.div self.val11 other.val11
  let val12 : BitVec 64 := E.f64.div self.val12 other.val12
  let val13 : BitVec 64 := E.f64.div self.val13 other.val13
  let val14 : BitVec 64 := E.f64.div self.val14 other.val14
  let val15 : BitVec 64 := E.f64.div self.val15 other.val15
  let val16 : BitVec 64 := E.f64.div self.val16 other.val16
  let val17 : BitVec 64 := E.f64.div self.val17 other.val17
  let val18 : BitVec 64 := E.f64.div self.val18 other.val18
  let val19 : BitVec 64 := E.f64.div self.val19 other.val19
  let val20 : BitVec 64 := E.f64.div self.val20 other.val20
  let val21 : BitVec 64 := E.f64.div self.val21 other.val21
  let val22 : BitVec 64 := E.f64.div self.val22 other.val22
  let val23 : BitVec 64 := E.f64.div self.val23 other.val23
  let val24 : BitVec 64 := E.f64.div self.val24 other.val24
  let val25 : BitVec 64 := E.f64.div self.val25 other.val25
  let val26 : BitVec 64 := E.f64.div self.val26 other.val26
  let val27 : BitVec 64 := E.f64.div self.val27 other.val27
  let val28 : BitVec 64 := E.f64.div self.val28 other.val28
  let val29 : BitVec 64 := E.f64.div self.val29 other.val29
  let val30 : BitVec 64 := E.f64.div self.val30 other.val30
  let val31 : BitVec 64 := E.f64.div self.val31 other.val31
  ⟨val0, val1, val2, val3, val4, val5, val6, val7, val8, val9, val10, val11, val12, val13, val14, val15, val16, val17, val18,
      val19, val20, val21, val22, val23, val24, val25, val26, val27, val28, val29, val30, val31⟩

/-- `operator/` (detail/short_vec_scalar_double_32.hpp:490-526) -/
def opDiv (E : FEnv) (self : V) (other : V) : V :=
  ofRegs E (E.f64.div self.val0 other.val0) (E.f64.div self.val1 other.val1) (E.f64.div self.val2 other.val2) (E.f64.div
      self.val3 other.val3) (E.f64.div self.val4 other.val4) (E.f64.div self.val5 other.val5) (E.f64.div self.val6 other.val6)
      (E.f64.div self.val7 other.val7) (E.f64.div self.val8 other.val8) (E.f64.div self.val9 other.val9) (E.f64.div self.val10
      other.val10) (E.f64.div self.val11 other.val11) (E.f64.div self.val12 other.val12) (E.f64.div self.val13 other.val13)
      (E.f64.div self.val14 other.val14) (E.f64.div self.val15 other.val15) (E.f64.div self.val16 other.val16) (E.f64.div
      self.val17 other.val17) (E.f64.div self.val18 other.val18) (E.f64.div self.val19 other.val19) (E.f64.div self.val20
      other.val20) (E.f64.div self.val21 other.val21) (E.f64.div self.val22 other.val22) (E.f64.div self.val23 other.val23)
      (E.f64.div self.val24 other.val24) (E.f64.div self.val25 other.val25) (E.f64.div self.val26 other.val26) (E.f64.div
      self.val27 other.val27) (E.f64.div self.val28 other.val28) (E.f64.div self.val29 other.val29) (E.f64.div self.val30
      other.val30) (E.f64.div self.val31 other.val31)

/-- `operator<` (detail/short_vec_scalar_double_32.hpp:529-565) -/
def opLt (E : FEnv) (self : V) (other : V) : Option Mask := do
  let t1 ← iadd ((b2i (E.f64.lt self.val0 other.val0)) <<< 0) ((b2i (E.f64.lt self.val1 other.val1)) <<< 1)
  let t2 ← iadd t1 ((b2i (E.f64.lt self.val2 other.val2)) <<< 2)
  let t3 ← iadd t2 ((b2i (E.f64.lt self.val3 other.val3)) <<< 3)
  let t4 ← iadd t3 ((b2i (E.f64.lt self.val4 other.val4)) <<< 4)
  let t5 ← iadd t4 ((b2i (E.f64.lt self.val5 other.val5)) <<< 5)
  let t6 ← iadd t5 ((b2i (E.f64.lt self.val6 other.val6)) <<< 6)
  let t7 ← iadd t6 ((b2i (E.f64.lt self.val7 other.val7)) <<< 7)
  let t8 ← iadd t7 ((b2i (E.f64.lt self.val8 other.val8)) <<< 8)
  let t9 ← iadd t8 ((b2i (E.f64.lt self.val9 other.val9)) <<< 9)
  let t10 ← iadd t9 ((b2i (E.f64.lt self.val10 other.val10)) <<< 10)
  let t11 ← iadd t10 ((b2i (E.f64.lt self.val11 other.val11)) <<< 11)
  let t12 ← iadd t11 ((b2i (E.f64.lt self.val12 other.val12)) <<< 12)
  let t13 ← iadd t12 ((b2i (E.f64.lt self.val13 other.val13)) <<< 13)
  let t14 ← iadd t13 ((b2i (E.f64.lt self.val14 other.val14)) <<< 14)
  let t15 ← iadd t14 ((b2i (E.f64.lt self.val15 other.val15)) <<< 15)
  let t16 ← iadd t15 ((b2i (E.f64.lt self.val16 other.val16)) <<< 16)
  let t17 ← iadd t16 ((b2i (E.f64.lt self.val17 other.val17)) <<< 17)
  let t18 ← iadd t17 ((b2i (E.f64.lt self.val18 other.val18)) <<< 18)
  let t19 ← iadd t18 ((b2i (E.f64.lt self.val19 other.val19)) <<< 19)
  let t20 ← iadd t19 ((b2i (E.f64.lt self.val20 other.val20)) <<< 20)
  let t21 ← iadd t20 ((b2i (E.f64.lt self.val21 other.val21)) <<< 21)
  let t22 ← iadd t21 ((b2i (E.f64.lt self.val22 other.val22)) <<< 22)
  let t23 ← iadd t22 ((b2i (E.f64.lt self.val23 other.val23)) <<< 23)
  let t24 ← iadd t23 ((b2i (E.f64.lt self.val24 other.val24)) <<< 24)
  let t25 ← iadd t24 ((b2i (E.f64.lt self.val25 other.val25)) <<< 25)
  let t26 ← iadd t25 ((b2i (E.f64.lt self.val26 other.val26)) <<< 26)
  let t27 ← iadd t26 ((b2i (E.f64.lt self.val27 other.val27)) <<< 27)
  let t28 ← iadd t27 ((b2i (E.f64.lt self.val28 other.val28)) <<< 28)
  let t29 ← iadd t28 ((b2i (E.f64.lt self.val29 other.val29)) <<< 29)
  let t30 ← iadd t29 ((b2i (E.f64.lt self.val30 other.val30)) <<< 30)
  let t31 ← iadd t30 ((b2i (E.f64.lt self.val31 other.val31)) <<< 31)
  some t31

/-- `operator<=` (detail/short_vec_scalar_double_32.hpp:567-603) -/
def opLe (E : FEnv) (self : V) (other : V) : Option Mask := do
  let t1 ← iadd ((b2i (E.f64.le self.val0 other.val0)) <<< 0) ((b2i (E.f64.le self.val1 other.val1)) <<< 1)
  let t2 ← iadd t1 ((b2i (E.f64.le self.val2 other.val2)) <<< 2)
  let t3 ← iadd t2 ((b2i (E.f64.le self.val3 other.val3)) <<< 3)
  let t4 ← iadd t3 ((b2i (E.f64.le self.val4 other.val4)) <<< 4)
  let t5 ← iadd t4 ((b2i (E.f64.le self.val5 other.val5)) <<< 5)
  let t6 ← iadd t5 ((b2i (E.f64.le self.val6 other.val6)) <<< 6)
  let t7 ← iadd t6 ((b2i (E.f64.le self.val7 other.val7)) <<< 7)
  let t8 ← iadd t7 ((b2i (E.f64.le self.val8 other.val8)) <<< 8)
  let t9 ← iadd t8 ((b2i (E.f64.le self.val9 other.val9)) <<< 9)
  let t10 ← iadd t9 ((b2i (E.f64.le self.val10 other.val10)) <<< 10)
  let t11 ← iadd t10 ((b2i (E.f64.le self.val11 other.val11)) <<< 11)
  let t12 ← iadd t11 ((b2i (E.f64.le self.val12 other.val12)) <<< 12)
  let t13 ← iadd t12 ((b2i (E.f64.le self.val13 other.val13)) <<< 13)
  let t14 ← iadd t13 ((b2i (E.f64.le self.val14 other.val14)) <<< 14)
  let t15 ← iadd t14 ((b2i (E.f64.le self.val15 other.val15)) <<< 15)
  let t16 ← iadd t15 ((b2i (E.f64.le self.val16 other.val16)) <<< 16)
  let t17 ← iadd t16 ((b2i (E.f64.le self.val17 other.val17)) <<< 17)
  let t18 ← iadd t17 ((b2i (E.f64.le self.val18 other.val18)) <<< 18)
  let t19 ← iadd t18 ((b2i (E.f64.le self.val19 other.val19)) <<< 19)
  let t20 ← iadd t19 ((b2i (E.f64.le self.val20 other.val20)) <<< 20)
  let t21 ← iadd t20 ((b2i (E.f64.le self.val21 other.val21)) <<< 21)
  let t22 ← iadd t21 ((b2i (E.f64.le self.val22 other.val22)) <<< 22)
  let t23 ← iadd t22 ((b2i (E.f64.le self.val23 other.val23)) <<< 23)
  let t24 ← iadd t23 ((b2i (E.f64.le self.val24 other.val24)) <<< 24)
  let t25 ← iadd t24 ((b2i (E.f64.le self.val25 other.val25)) <<< 25)
  let t26 ← iadd t25 ((b2i (E.f64.le self.val26 other.val26)) <<< 26)
  let t27 ← iadd t26 ((b2i (E.f64.le self.val27 other.val27)) <<< 27)
  let t28 ← iadd t27 ((b2i (E.f64.le self.val28 other.val28)) <<< 28)
  let t29 ← iadd t28 ((b2i (E.f64.le self.val29 other.val29)) <<< 29)
  let t30 ← iadd t29 ((b2i (E.f64.le self.val30 other.val30)) <<< 30)
  let t31 ← iadd t30 ((b2i (E.f64.le self.val31 other.val31)) <<< 31)
  some t31

/-- `operator==` (detail/short_vec_scalar_double_32.hpp:605-641) -/
def opEq (E : FEnv) (self : V) (other : V) : Option Mask := do
  let t1 ← iadd ((b2i (E.f64.eq self.val0 other.val0)) <<< 0) ((b2i (E.f64.eq self.val1 other.val1)) <<< 1)
  let t2 ← iadd t1 ((b2i (E.f64.eq self.val2 other.val2)) <<< 2)
  let t3 ← iadd t2 ((b2i (E.f64.eq self.val3 other.val3)) <<< 3)
  let t4 ← iadd t3 ((b2i (E.f64.eq self.val4 other.val4)) <<< 4)
  let t5 ← iadd t4 ((b2i (E.f64.eq self.val5 other.val5)) <<< 5)
  let t6 ← iadd t5 ((b2i (E.f64.eq self.val6 other.val6)) <<< 6)
  let t7 ← iadd t6 ((b2i (E.f64.eq self.val7 other.val7)) <<< 7)
  let t8 ← iadd t7 ((b2i (E.f64.eq self.val8 other.val8)) <<< 8)
  let t9 ← iadd t8 ((b2i (E.f64.eq self.val9 other.val9)) <<< 9)
  let t10 ← iadd t9 ((b2i (E.f64.eq self.val10 other.val10)) <<< 10)
  let t11 ← iadd t10 ((b2i (E.f64.eq self.val11 other.val11)) <<< 11)
  let t12 ← iadd t11 ((b2i (E.f64.eq self.val12 other.val12)) <<< 12)
  let t13 ← iadd t12 ((b2i (E.f64.eq self.val13 other.val13)) <<< 13)
  let t14 ← iadd t13 ((b2i (E.f64.eq self.val14 other.val14)) <<< 14)
  let t15 ← iadd t14 ((b2i (E.f64.eq self.val15 other.val15)) <<< 15)
  let t16 ← iadd t15 ((b2i (E.f64.eq self.val16 other.val16)) <<< 16)
  let t17 ← iadd t16 ((b2i (E.f64.eq self.val17 other.val17)) <<< 17)
  let t18 ← iadd t17 ((b2i (E.f64.eq self.val18 other.val18)) <<< 18)
  let t19 ← iadd t18 ((b2i (E.f64.eq self.val19 other.val19)) <<< 19)
  let t20 ← iadd t19 ((b2i (E.f64.eq self.val20 other.val20)) <<< 20)
  let t21 ← iadd t20 ((b2i (E.f64.eq self.val21 other.val21)) <<< 21)
  let t22 ← iadd t21 ((b2i (E.f64.eq self.val22 other.val22)) <<< 22)
  let t23 ← iadd t22 ((b2i (E.f64.eq self.val23 other.val23)) <<< 23)
  let t24 ← iadd t23 ((b2i (E.f64.eq self.val24 other.val24)) <<< 24)
  let t25 ← iadd t24 ((b2i (E.f64.eq self.val25 other.val25)) <<< 25)
  let t26 ← iadd t25 ((b2i (E.f64.eq self.val26 other.val26)) <<< 26)
  let t27 ← iadd t26 ((b2i (E.f64.eq self.val27 other.val27)) <<< 27)
  let t28 ← iadd t27 ((b2i (E.f64.eq self.val28 other.val28)) <<< 28)
  let t29 ← iadd t28 ((b2i (E.f64.eq self.val29 other.val29)) <<< 29)
  let t30 ← iadd t29 ((b2i (E.f64.eq self.val30 other.val30)) <<< 30)
  let t31 ← iadd t30 ((b2i (E.f64.eq self.val31 other.val31)) <<< 31)
  some t31

/-- `operator>` (detail/short_vec_scalar_double_32.hpp:643-679) -/
def opGt (E : FEnv) (self : V) (other : V) : Option Mask := do
  let t1 ← iadd ((b2i (E.f64.gt self.val0 other.val0)) <<< 0) ((b2i (E.f64.gt self.val1 other.val1)) <<< 1)
  let t2 ← iadd t1 ((b2i (E.f64.gt self.val2 other.val2)) <<< 2)
  let t3 ← iadd t2 ((b2i (E.f64.gt self.val3 other.val3)) <<< 3)
  let t4 ← iadd t3 ((b2i (E.f64.gt self.val4 other.val4)) <<< 4)
  let t5 ← iadd t4 ((b2i (E.f64.gt self.val5 other.val5)) <<< 5)
  let t6 ← iadd t5 ((b2i (E.f64.gt self.val6 other.val6)) <<< 6)
  let t7 ← iadd t6 ((b2i (E.f64.gt self.val7 other.val7)) <<< 7)
  let t8 ← iadd t7 ((b2i (E.f64.gt self.val8 other.val8)) <<< 8)
  let t9 ← iadd t8 ((b2i (E.f64.gt self.val9 other.val9)) <<< 9)
  let t10 ← iadd t9 ((b2i (E.f64.gt self.val10 other.val10)) <<< 10)
  let t11 ← iadd t10 ((b2i (E.f64.gt self.val11 other.val11)) <<< 11)
  let t12 ← iadd t11 ((b2i (E.f64.gt self.val12 other.val12)) <<< 12)
  let t13 ← iadd t12 ((b2i (E.f64.gt self.val13 other.val13)) <<< 13)
  let t14 ← iadd t13 ((b2i (E.f64.gt self.val14 other.val14)) <<< 14)
  let t15 ← iadd t14 ((b2i (E.f64.gt self.val15 other.val15)) <<< 15)
  let t16 ← iadd t15 ((b2i (E.f64.gt self.val16 other.val16)) <<< 16)
  let t17 ← iadd t16 ((b2i (E.f64.gt self.val17 other.val17)) <<< 17)
  let t18 ← iadd t17 ((b2i (E.f64.gt self.val18 other.val18)) <<< 18)
  let t19 ← iadd t18 ((b2i (E.f64.gt self.val19 other.val19)) <<< 19)
  let t20 ← iadd t19 ((b2i (E.f64.gt self.val20 other.val20)) <<< 20)
  let t21 ← iadd t20 ((b2i (E.f64.gt self.val21 other.val21)) <<< 21)
  let t22 ← iadd t21 ((b2i (E.f64.gt self.val22 other.val22)) <<< 22)
  let t23 ← iadd t22 ((b2i (E.f64.gt self.val23 other.val23)) <<< 23)
  let t24 ← iadd t23 ((b2i (E.f64.gt self.val24 other.val24)) <<< 24)
  let t25 ← iadd t24 ((b2i (E.f64.gt self.val25 other.val25)) <<< 25)
  let t26 ← iadd t25 ((b2i (E.f64.gt self.val26 other.val26)) <<< 26)
  let t27 ← iadd t26 ((b2i (E.f64.gt self.val27 other.val27)) <<< 27)
  let t28 ← iadd t27 ((b2i (E.f64.gt self.val28 other.val28)) <<< 28)
  let t29 ← iadd t28 ((b2i (E.f64.gt self.val29 other.val29)) <<< 29)
  let t30 ← iadd t29 ((b2i (E.f64.gt self.val30 other.val30)) <<< 30)
  let t31 ← iadd t30 ((b2i (E.f64.gt self.val31 other.val31)) <<< 31)
  some t31

/-- `operator>=` (detail/short_vec_scalar_double_32.hpp:681-717) -/
def opGe (E : FEnv) (self : V) (other : V) : Option Mask := do
  let t1 ← iadd ((b2i (E.f64.ge self.val0 other.val0)) <<< 0) ((b2i (E.f64.ge self.val1 other.val1)) <<< 1)
  let t2 ← iadd t1 ((b2i (E.f64.ge self.val2 other.val2)) <<< 2)
  let t3 ← iadd t2 ((b2i (E.f64.ge self.val3 other.val3)) <<< 3)
  let t4 ← iadd t3 ((b2i (E.f64.ge self.val4 other.val4)) <<< 4)
  let t5 ← iadd t4 ((b2i (E.f64.ge self.val5 other.val5)) <<< 5)
  let t6 ← iadd t5 ((b2i (E.f64.ge self.val6 other.val6)) <<< 6)
  let t7 ← iadd t6 ((b2i (E.f64.ge self.val7 other.val7)) <<< 7)
  let t8 ← iadd t7 ((b2i (E.f64.ge self.val8 other.val8)) <<< 8)
  let t9 ← iadd t8 ((b2i (E.f64.ge self.val9 other.val9)) <<< 9)
  let t10 ← iadd t9 ((b2i (E.f64.ge self.val10 other.val10)) <<< 10)
  let t11 ← iadd t10 ((b2i (E.f64.ge self.val11 other.val11)) <<< 11)
  let t12 ← iadd t11 ((b2i (E.f64.ge self.val12 other.val12)) <<< 12)
  let t13 ← iadd t12 ((b2i (E.f64.ge self.val13 other.val13)) <<< 13)
  let t14 ← iadd t13 ((b2i (E.f64.ge self.val14 other.val14)) <<< 14)
  let t15 ← iadd t14 ((b2i (E.f64.ge self.val15 other.val15)) <<< 15)
  let t16 ← iadd t15 ((b2i (E.f64.ge self.val16 other.val16)) <<< 16)
  let t17 ← iadd t16 ((b2i (E.f64.ge self.val17 other.val17)) <<< 17)
  let t18 ← iadd t17 ((b2i (E.f64.ge self.val18 other.val18)) <<< 18)
  let t19 ← iadd t18 ((b2i (E.f64.ge self.val19 other.val19)) <<< 19)
  let t20 ← iadd t19 ((b2i (E.f64.ge self.val20 other.val20)) <<< 20)
  let t21 ← iadd t20 ((b2i (E.f64.ge self.val21 other.val21)) <<< 21)
  let t22 ← iadd t21 ((b2i (E.f64.ge self.val22 other.val22)) <<< 22)
  let t23 ← iadd t22 ((b2i (E.f64.ge self.val23 other.val23)) <<< 23)
  let t24 ← iadd t23 ((b2i (E.f64.ge self.val24 other.val24)) <<< 24)
  let t25 ← iadd t24 ((b2i (E.f64.ge self.val25 other.val25)) <<< 25)
  let t26 ← iadd t25 ((b2i (E.f64.ge self.val26 other.val26)) <<< 26)
  let t27 ← iadd t26 ((b2i (E.f64.ge self.val27 other.val27)) <<< 27)
  let t28 ← iadd t27 ((b2i (E.f64.ge self.val28 other.val28)) <<< 28)
  let t29 ← iadd t28 ((b2i (E.f64.ge self.val29 other.val29)) <<< 29)
  let t30 ← iadd t29 ((b2i (E.f64.ge self.val30 other.val30)) <<< 30)
  let t31 ← iadd t30 ((b2i (E.f64.ge self.val31 other.val31)) <<< 31)
  some t31

/-- `load_aligned` (detail/short_vec_scalar_double_32.hpp:803-807) -/
def load_aligned (E : FEnv) (m : Mem 64) (self : V) (data : Int) : Option V := do
  let v1 ← load E m self data
  some ⟨v1.val0, v1.val1, v1.val2, v1.val3, v1.val4, v1.val5, v1.val6, v1.val7, v1.val8, v1.val9, v1.val10, v1.val11, v1.val12,
      v1.val13, v1.val14, v1.val15, v1.val16, v1.val17, v1.val18, v1.val19, v1.val20, v1.val21, v1.val22, v1.val23, v1.val24,
      v1.val25, v1.val26, v1.val27, v1.val28, v1.val29, v1.val30, v1.val31⟩

/-- `store_aligned` (detail/short_vec_scalar_double_32.hpp:846-850) -/
def store_aligned (E : FEnv) (self : V) (data : Int) : Option (Writes 64) := do
  let w1 ← store E self data
  some w1

/-- `store_nt` (detail/short_vec_scalar_double_32.hpp:852-856) -/
def store_nt (E : FEnv) (self : V) (data : Int) : Option (Writes 64) := do
  let w1 ← store E self data
  some w1

/-- `gather` (detail/short_vec_scalar_double_32.hpp:858-893) -/
def gather (E : FEnv) (m : Mem 64) (mo : Mem 32) (self : V) (ptr : Int) (offsets : Int) : Option V := do
  let t1 ← mo (offsets + 0)
  let t2 ← m (ptr + t1.toInt)
  let val0 : BitVec 64 := t2
  let t3 ← mo (offsets + 1)
  let t4 ← m (ptr + t3.toInt)
  let val1 : BitVec 64 := t4
  let t5 ← mo (offsets + 2)
  let t6 ← m (ptr + t5.toInt)
  let val2 : BitVec 64 := t6
  let t7 ← mo (offsets + 3)
  let t8 ← m (ptr + t7.toInt)
  let val3 : BitVec 64 := t8
  let t9 ← mo (offsets + 4)
  let t10 ← m (ptr + t9.toInt)
  let val4 : BitVec 64 := t10
  let t11 ← mo (offsets + 5)
  let t12 ← m (ptr + t11.toInt)
  let val5 : BitVec 64 := t12
  let t13 ← mo (offsets + 6)
  let t14 ← m (ptr + t13.toInt)
  let val6 : BitVec 64 := t14
  let t15 ← mo (offsets + 7)
  let t16 ← m (ptr + t15.toInt)
  let val7 : BitVec 64 := t16
  let t17 ← mo (offsets + 8)
  let t18 ← m (ptr + t17.toInt)
  let val8 : BitVec 64 := t18
  let t19 ← mo (offsets + 9)
  let t20 ← m (ptr + t19.toInt)
  let val9 : BitVec 64 := t20
  let t21 ← mo (offsets + 10)
  let t22 ← m (ptr + t21.toInt)
  let val10 : BitVec 64 := t22
  let t23 ← mo (offsets + 11)
  let t24 ← m (ptr + t23.toInt)
  let val11 : BitVec 64 := t24
  let t25 ← mo (offsets + 12)
  let t26 ← m (ptr + t25.toInt)
  let val12 : BitVec 64 := t26
  let t27 ← mo (offsets + 13)
  let t28 ← m (ptr + t27.toInt)
  let val13 : BitVec 64 := t28
  let t29 ← mo (offsets + 14)
  let t30 ← m (ptr + t29.toInt)
  let val14 : BitVec 64 := t30
  let t31 ← mo (offsets + 15)
  let t32 ← m (ptr + t31.toInt)
  let val15 : BitVec 64 := t32
  let t33 ← mo (offsets + 16)
  let t34 ← m (ptr + t33.toInt)
  let val16 : BitVec 64 := t34
  let t35 ← mo (offsets + 17)
  let t36 ← m (ptr + t35.toInt)
  let val17 : BitVec 64 := t36
  let t37 ← mo (offsets + 18)
  let t38 ← m (ptr + t37.toInt)
  let val18 : BitVec 64 := t38
  let t39 ← mo (offsets + 19)
  let t40 ← m (ptr + t39.toInt)
  let val19 : BitVec 64 := t40
  let t41 ← mo (offsets + 20)
  let t42 ← m (ptr + t41.toInt)
  let val20 : BitVec 64 := t42
  let t43 ← mo (offsets + 21)
  let t44 ← m (ptr + t43.toInt)
  let val21 : BitVec 64 := t44
  let t45 ← mo (offsets + 22)
  let t46 ← m (ptr + t45.toInt)
  let val22 : BitVec 64 := t46
  let t47 ← mo (offsets + 23)
  let t48 ← m (ptr + t47.toInt)
  let val23 : BitVec 64 := t48
  let t49 ← mo (offsets + 24)
  let t50 ← m (ptr + t49.toInt)
  let val24 : BitVec 64 := t50
  let t51 ← mo (offsets + 25)
  let t52 ← m (ptr + t51.toInt)
  let val25 : BitVec 64 := t52
  let t53 ← mo (offsets + 26)
  let t54 ← m (ptr + t53.toInt)
  let val26 : BitVec 64 := t54
  let t55 ← mo (offsets + 27)
  let t56 ← m (ptr + t55.toInt)
  let val27 : BitVec 64 := t56
  let t57 ← mo (offsets + 28)
  let t58 ← m (ptr + t57.toInt)
  let val28 : BitVec 64 := t58
  let t59 ← mo (offsets + 29)
  let t60 ← m (ptr + t59.toInt)
  let val29 : BitVec 64 := t60
  let t61 ← mo (offsets + 30)
  let t62 ← m (ptr + t61.toInt)
  let val30 : BitVec 64 := t62
  let t63 ← mo (offsets + 31)
  let t64 ← m (ptr + t63.toInt)
  let val31 : BitVec 64 := t64
  some ⟨val0, val1, val2, val3, val4, val5, val6, val7, val8, val9, val10, val11, val12, val13, val14, val15, val16, val17,
      val18, val19, val20, val21, val22, val23, val24, val25, val26, val27, val28, val29, val30, val31⟩

/-- `scatter` (detail/short_vec_scalar_double_32.hpp:895-930) -/
def scatter (E : FEnv) (mo : Mem 32) (self : V) (ptr : Int) (offsets : Int) : Option (Writes 64) := do
  let t1 ← mo (offsets + 0)
  let t2 ← mo (offsets + 1)
  let t3 ← mo (offsets + 2)
  let t4 ← mo (offsets + 3)
  let t5 ← mo (offsets + 4)
  let t6 ← mo (offsets + 5)
  let t7 ← mo (offsets + 6)
  let t8 ← mo (offsets + 7)
  let t9 ← mo (offsets + 8)
  let t10 ← mo (offsets + 9)
  let t11 ← mo (offsets + 10)
  let t12 ← mo (offsets + 11)
  let t13 ← mo (offsets + 12)
  let t14 ← mo (offsets + 13)
  let t15 ← mo (offsets + 14)
  let t16 ← mo (offsets + 15)
  let t17 ← mo (offsets + 16)
  let t18 ← mo (offsets + 17)
  let t19 ← mo (offsets + 18)
  let t20 ← mo (offsets + 19)
  let t21 ← mo (offsets + 20)
  let t22 ← mo (offsets + 21)
  let t23 ← mo (offsets + 22)
  let t24 ← mo (offsets + 23)
  let t25 ← mo (offsets + 24)
  let t26 ← mo (offsets + 25)
  let t27 ← mo (offsets + 26)
  let t28 ← mo (offsets + 27)
  let t29 ← mo (offsets + 28)
  let t30 ← mo (offsets + 29)
  let t31 ← mo (offsets + 30)
  let t32 ← mo (offsets + 31)
  some ([(ptr + t1.toInt, self.val0)] ++ [(ptr + t2.toInt, self.val1)] ++ [(ptr + t3.toInt, self.val2)] ++ [(ptr + t4.toInt,
      self.val3)] ++ [(ptr + t5.toInt, self.val4)] ++ [(ptr + t6.toInt, self.val5)] ++ [(ptr + t7.toInt, self.val6)] ++ [(ptr +
      t8.toInt, self.val7)] ++ [(ptr + t9.toInt, self.val8)] ++ [(ptr + t10.toInt, self.val9)] ++ [(ptr + t11.toInt,
      self.val10)] ++ [(ptr + t12.toInt, self.val11)] ++ [(ptr + t13.toInt, self.val12)] ++ [(ptr + t14.toInt, self.val13)] ++
      [(ptr + t15.toInt, self.val14)] ++ [(ptr + t16.toInt, self.val15)] ++ [(ptr + t17.toInt, self.val16)] ++ [(ptr +
      t18.toInt, self.val17)] ++ [(ptr + t19.toInt, self.val18)] ++ [(ptr + t20.toInt, self.val19)] ++ [(ptr + t21.toInt,
      self.val20)] ++ [(ptr + t22.toInt, self.val21)] ++ [(ptr + t23.toInt, self.val22)] ++ [(ptr + t24.toInt, self.val23)] ++
      [(ptr + t25.toInt, self.val24)] ++ [(ptr + t26.toInt, self.val25)] ++ [(ptr + t27.toInt, self.val26)] ++ [(ptr +
      t28.toInt, self.val27)] ++ [(ptr + t29.toInt, self.val28)] ++ [(ptr + t30.toInt, self.val29)] ++ [(ptr + t31.toInt,
      self.val30)] ++ [(ptr + t32.toInt, self.val31)])

/-- `blend` (detail/short_vec_scalar_double_32.hpp:932-1031) -/
def blend (E : FEnv) (self : V) (mask : Mask) (other : V) : V :=
  let val0 : BitVec 64 := if (mask &&& (1 : BitVec 32)) != 0 then other.val0 else self.val0
  let val1 : BitVec 64 := if (mask &&& (2 : BitVec 32)) != 0 then other.val1 else self.val1
  let val2 : BitVec 64 := if (mask &&& (4 : BitVec 32)) != 0 then other.val2 else self.val2
  let val3 : BitVec 64 := if (mask &&& (8 : BitVec 32)) != 0 then other.val3 else self.val3
  let val4 : BitVec 64 := if (mask &&& (16 : BitVec 32)) != 0 then other.val4 else self.val4
  let val5 : BitVec 64 := if (mask &&& (32 : BitVec 32)) != 0 then other.val5 else self.val5
  let val6 : BitVec 64 := if (mask &&& (64 : BitVec 32)) != 0 then other.val6 else self.val6
  let val7 : BitVec 64 := if (mask &&& (128 : BitVec 32)) != 0 then other.val7 else self.val7
  let val8 : BitVec 64 := if (mask &&& (256 : BitVec 32)) != 0 then other.val8 else self.val8
  let val9 : BitVec 64 := if (mask &&& (512 : BitVec 32)) != 0 then other.val9 else self.val9
  let val10 : BitVec 64 := if (mask &&& (1024 : BitVec 32)) != 0 then other.val10 else self.val10
  let val11 : BitVec 64 := if (mask &&& (2048 : BitVec 32)) != 0 then other.val11 else self.val11
  let val12 : BitVec 64 := if (mask &&& (4096 : BitVec 32)) != 0 then other.val12 else self.val12
  let val13 : BitVec 64 := if (mask &&& (8192 : BitVec 32)) != 0 then other.val13 else self.val13
  let val14 : BitVec 64 := if (mask &&& (16384 : BitVec 32)) != 0 then other.val14 else self.val14
  let val15 : BitVec 64 := if (mask &&& (32768 : BitVec 32)) != 0 then other.val15 else self.val15
  let val16 : BitVec 64 := if (mask &&& (65536 : BitVec 32)) != 0 then other.val16 else self.val16
  let val17 : BitVec 64 := if (mask &&& (131072 : BitVec 32)) != 0 then other.val17 else self.val17
  let val18 : BitVec 64 := if (mask &&& (262144 : BitVec 32)) != 0 then other.val18 else self.val18
  let val19 : BitVec 64 := if (mask &&& (524288 : BitVec 32)) != 0 then other.val19 else self.val19
  let val20 : BitVec 64 := if (mask &&& (1048576 : BitVec 32)) != 0 then other.val20 else self.val20
  let val21 : BitVec 64 := if (mask &&& (2097152 : BitVec 32)) != 0 then other.val21 else self.val21
  let val22 : BitVec 64 := if (mask &&& (4194304 : BitVec 32)) != 0 then other.val22 else self.val22
  let val23 : BitVec 64 := if (mask &&& (8388608 : BitVec 32)) != 0 then other.val23 else self.val23
  let val24 : BitVec 64 := if (mask &&& (16777216 : BitVec 32)) != 0 then other.val24 else self.val24
  let val25 : BitVec 64 := if (mask &&& (33554432 : BitVec 32)) != 0 then other.val25 else self.val25
  let val26 : BitVec 64 := if (mask &&& (67108864 : BitVec 32)) != 0 then other.val26 else self.val26
  let val27 : BitVec 64 := if (mask &&& (134217728 : BitVec 32)) != 0 then other.val27 else self.val27
  let val28 : BitVec 64 := if (mask &&& (268435456 : BitVec 32)) != 0 then other.val28 else self.val28
  let val29 : BitVec 64 := if (mask &&& (536870912 : BitVec 32)) != 0 then other.val29 else self.val29
  let val30 : BitVec 64 := if (mask &&& (1073741824 : BitVec 32)) != 0 then other.val30 else self.val30
  let val31 : BitVec 64 := if (mask &&& (2147483648 : BitVec 32)) != 0 then other.val31 else self.val31
  ⟨val0, val1, val2, val3, val4, val5, val6, val7, val8, val9, val10, val11, val12, val13, val14, val15, val16, val17, val18,
      val19, val20, val21, val22, val23, val24, val25, val26, val27, val28, val29, val30, val31⟩

/-- `operator<<`, free function (detail/short_vec_scalar_double_32.hpp:1037-1041) -/
def opStore (E : FEnv) (data : Int) (vec : V) : Option (Writes 64) := do
  let w1 ← store E vec data
  some w1

/-- `sqrt`, free function (detail/short_vec_scalar_double_32.hpp:1047-1051) -/
def sqrtFn (E : FEnv) (vec : V) : V := sqrt E vec

/-- `operator<<`, free function (detail/short_vec_scalar_double_32.hpp:1059-1074) -/
def print (E : FEnv) (vec : V) : List (Out 64) :=
  [.s "[", .v vec.val0, .s ", ", .v vec.val1, .s ", ", .v vec.val2, .s ", ", .v vec.val3, .s ", ", .v vec.val4, .s ", ", .v
      vec.val5, .s ", ", .v vec.val6, .s ", ", .v vec.val7, .s ", ", .v vec.val8, .s ", ", .v vec.val9, .s ", ", .v vec.val10,
      .s ", ", .v vec.val11, .s ", ", .v vec.val12, .s ", ", .v vec.val13, .s ", ", .v vec.val14, .s ", ", .v vec.val15, .s
      ", ", .v vec.val16, .s ", ", .v vec.val17, .s ", ", .v vec.val18, .s ", ", .v vec.val19, .s ", ", .v vec.val20, .s ", ",
      .v vec.val21, .s ", ", .v vec.val22, .s ", ", .v vec.val23, .s ", ", .v vec.val24, .s ", ", .v vec.val25, .s ", ", .v
      vec.val26, .s ", ", .v vec.val27, .s ", ", .v vec.val28, .s ", ", .v vec.val29, .s ", ", .v vec.val30, .s ", ", .v
      vec.val31, .s "]"]

end LFA.SV.ScalarDouble32
