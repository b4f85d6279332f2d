/-
  Generated by tools/sv_gen.py from detail/short_vec_scalar_int_*.hpp.
-/
import Verif.SV.Base
set_option linter.unusedVariables false
set_option autoImplicit false

namespace LFA.SV.ScalarInt1

/-- members of `short_vec<int, 1>` (detail/short_vec_scalar_int_1.hpp:51) -/
structure V where
  val : BitVec 32

/-- lanes, from low to high -/
def V.lanes (v : V) : List (BitVec 32) := [v.val]

/-- `mask_type` -/
abbrev Mask := BitVec 8

/-- constructor (detail/short_vec_scalar_int_1.hpp:63-66) -/
def bcast (E : FEnv) (data : BitVec 32) : V := ⟨data⟩

/-- `load` (detail/short_vec_scalar_int_1.hpp:193-197) -/
def load (E : FEnv) (m : Mem 32) (self : V) (data : Int) : Option V := do
  let t1 ← m (data + 0)
  let val : BitVec 32 := t1
  some ⟨val⟩

/-- `store` (detail/short_vec_scalar_int_1.hpp:205-209) -/
def store (E : FEnv) (self : V) (data : Int) : Option (Writes 32) := some [(data + 0, self.val)]

/-- `sqrt` (detail/short_vec_scalar_int_1.hpp:186-191) -/
def sqrt (E : FEnv) (self : V) : V := bcast E (E.f64.toIntT (E.f64.sqrt (E.f64.ofInt self.val)))

/-- constructor (detail/short_vec_scalar_int_1.hpp:68-72) -/
def ofPtr (E : FEnv) (m : Mem 32) (data : Int) : Option V := do
  let v1 ← load E m ⟨(uninit : BitVec 32)⟩ data
  some ⟨v1.val⟩

/-- constructor (detail/short_vec_scalar_int_1.hpp:75-80) -/
def ofList (E : FEnv) (m : Mem 32) (il : Int) : Option V := do
  let v1 ← load E m ⟨(uninit : BitVec 32)⟩ il
  some ⟨v1.val⟩

/-- `any` (detail/short_vec_scalar_int_1.hpp:83-87) -/
def any (E : FEnv) (self : V) : Bool := self.val != (0 : BitVec 32)

/-- `operator[]` (detail/short_vec_scalar_int_1.hpp:89-93) -/
def opIndex (E : FEnv) (self : V) (i : BitVec 32) : BitVec 32 := self.val

/-- `operator-=` (detail/short_vec_scalar_int_1.hpp:95-99) -/
def opSubAssign (E : FEnv) (self : V) (other : V) : Option V := do
  let t1 ← isub self.val other.val
  let val : BitVec 32 := t1
  some ⟨val⟩

/-- `operator-` (detail/short_vec_scalar_int_1.hpp:101-106) -/
def opSub (E : FEnv) (self : V) (other : V) : Option V := do
  let t1 ← isub self.val other.val
  some (bcast E t1)

/-- `operator+=` (detail/short_vec_scalar_int_1.hpp:108-112) -/
def opAddAssign (E : FEnv) (self : V) (other : V) : Option V := do
  let t1 ← iadd self.val other.val
  let val : BitVec 32 := t1
  some ⟨val⟩

/-- `operator+` (detail/short_vec_scalar_int_1.hpp:114-119) -/
def opAdd (E : FEnv) (self : V) (other : V) : Option V := do
  let t1 ← iadd self.val other.val
  some (bcast E t1)

/-- `operator*=` (detail/short_vec_scalar_int_1.hpp:121-125) -/
def opMulAssign (E : FEnv) (self : V) (other : V) : Option V := do
  let t1 ← imul self.val other.val
  let val : BitVec 32 := t1
  some ⟨val⟩

/-- `operator*` (detail/short_vec_scalar_int_1.hpp:127-132) -/
def opMul (E : FEnv) (self : V) (other : V) : Option V := do
  let t1 ← imul self.val other.val
  some (bcast E t1)

/-- `operator/=` (detail/short_vec_scalar_int_1.hpp:134-138) -/
def opDivAssign (E : FEnv) (self : V) (other : V) : Option V := do
  let t1 ← idiv self.val other.val
  let val : BitVec 32 := t1
  some ⟨val⟩

/-- `operator/` (detail/short_vec_scalar_int_1.hpp:140-145) -/
def opDiv (E : FEnv) (self : V) (other : V) : Option V := do
  let t1 ← idiv self.val other.val
  some (bcast E t1)

/-- `operator<` (detail/short_vec_scalar_int_1.hpp:148-152) -/
def opLt (E : FEnv) (self : V) (other : V) : Mask := (b2i (BitVec.slt self.val other.val)).setWidth 8

/-- `operator<=` (detail/short_vec_scalar_int_1.hpp:154-158) -/
def opLe (E : FEnv) (self : V) (other : V) : Mask := (b2i (BitVec.sle self.val other.val)).setWidth 8

/-- `operator==` (detail/short_vec_scalar_int_1.hpp:160-164) -/
def opEq (E : FEnv) (self : V) (other : V) : Mask := (b2i (self.val == other.val)).setWidth 8

/-- `operator==` (detail/short_vec_scalar_int_1.hpp:167-171) -/
def opEqInt (E : FEnv) (self : V) (other : BitVec 32) : Mask := (b2i (self.val == other)).setWidth 8

/-- `operator>` (detail/short_vec_scalar_int_1.hpp:173-177) -/
def opGt (E : FEnv) (self : V) (other : V) : Mask := (b2i (BitVec.slt other.val self.val)).setWidth 8

/-- `operator>=` (detail/short_vec_scalar_int_1.hpp:179-183) -/
def opGe (E : FEnv) (self : V) (other : V) : Mask := (b2i (BitVec.sle other.val self.val)).setWidth 8

/-- `load_aligned` (detail/short_vec_scalar_int_1.hpp:199-203) -/
def load_aligned (E : FEnv) (m : Mem 32) (self : V) (data : Int) : Option V := do
  let v1 ← load E m self data
  some ⟨v1.val⟩

/-- `store_aligned` (detail/short_vec_scalar_int_1.hpp:211-215) -/
def store_aligned (E : FEnv) (self : V) (data : Int) : Option (Writes 32) := do
  let w1 ← store E self data
  some w1

/-- `store_nt` (detail/short_vec_scalar_int_1.hpp:217-221) -/
def store_nt (E : FEnv) (self : V) (data : Int) : Option (Writes 32) := do
  let w1 ← store E self data
  some w1

/-- `gather` (detail/short_vec_scalar_int_1.hpp:223-227) -/
def gather (E : FEnv) (m : Mem 32) (mo : Mem 32) (self : V) (ptr : Int) (offsets : Int) : Option V := do
  let t1 ← mo (offsets + 0)
  let t2 ← m (ptr + t1.toInt)
  let val : BitVec 32 := t2
  some ⟨val⟩

/-- `scatter` (detail/short_vec_scalar_int_1.hpp:229-233) -/
def scatter (E : FEnv) (mo : Mem 32) (self : V) (ptr : Int) (offsets : Int) : Option (Writes 32) := do
  let t1 ← mo (offsets + 0)
  some [(ptr + t1.toInt, self.val)]

/-- `operator<<`, free function (detail/short_vec_scalar_int_1.hpp:243-247) -/
def opStore (E : FEnv) (data : Int) (vec : V) : Option (Writes 32) := do
  let w1 ← store E vec data
  some w1

/-- `sqrt`, free function (detail/short_vec_scalar_int_1.hpp:249-253) -/
def sqrtFn (E : FEnv) (vec : V) : V := sqrt E vec

/-- `operator<<`, free function (detail/short_vec_scalar_int_1.hpp:261-269) -/
def print (E : FEnv) (vec : V) : List (Out 32) := [.s "[", .v vec.val, .s "]"]

end LFA.SV.ScalarInt1

namespace LFA.SV.ScalarInt2

/-- members of `short_vec<int, 2>` (detail/short_vec_scalar_int_2.hpp:49) -/
structure V where
  val0 : BitVec 32
  val1 : BitVec 32

/-- lanes, from low to high -/
def V.lanes (v : V) : List (BitVec 32) := [v.val0, v.val1]

/-- constructor (detail/short_vec_scalar_int_2.hpp:61-64) -/
def bcast (E : FEnv) (data : BitVec 32) : V := ⟨data, data⟩

/-- constructor (detail/short_vec_scalar_int_2.hpp:72-76) -/
def ofRegs (E : FEnv) (val1 : BitVec 32) (val2 : BitVec 32) : V := ⟨val1, val2⟩

/-- `load` (detail/short_vec_scalar_int_2.hpp:155-160) -/
def load (E : FEnv) (m : Mem 32) (self : V) (data : Int) : Option V := do
  let t1 ← m (data + 0)
  let val0 : BitVec 32 := t1
  let t2 ← m (data + 1)
  let val1 : BitVec 32 := t2
  some ⟨val0, val1⟩

/-- `store` (detail/short_vec_scalar_int_2.hpp:168-173) -/
def store (E : FEnv) (self : V) (data : Int) : Option (Writes 32) :=
  some ([(data + 0, self.val0)] ++ [(data + 1, self.val1)])

/-- `sqrt` (detail/short_vec_scalar_int_2.hpp:147-153) -/
def sqrt (E : FEnv) (self : V) : V :=
  ofRegs E (E.f64.toIntT (E.f64.sqrt (E.f64.ofInt self.val0))) (E.f64.toIntT (E.f64.sqrt (E.f64.ofInt self.val1)))

/-- constructor (detail/short_vec_scalar_int_2.hpp:66-70) -/
def ofPtr (E : FEnv) (m : Mem 32) (data : Int) : Option V := do
  let v1 ← load E m ⟨(uninit : BitVec 32), (uninit : BitVec 32)⟩ data
  some ⟨v1.val0, v1.val1⟩

/-- constructor (detail/short_vec_scalar_int_2.hpp:79-84) -/
def ofList (E : FEnv) (m : Mem 32) (il : Int) : Option V := do
  let v1 ← load E m ⟨(uninit : BitVec 32), (uninit : BitVec 32)⟩ il
  some ⟨v1.val0, v1.val1⟩

/-- `operator-=` (detail/short_vec_scalar_int_2.hpp:87-92) -/
def opSubAssign (E : FEnv) (self : V) (other : V) : Option V := do
  let t1 ← isub self.val0 other.val0
  let val0 : BitVec 32 := t1
  let t2 ← isub self.val1 other.val1
  let val1 : BitVec 32 := t2
  some ⟨val0, val1⟩

/-- `operator-` (detail/short_vec_scalar_int_2.hpp:94-100) -/
def opSub (E : FEnv) (self : V) (other : V) : Option V := do
  let t1 ← isub self.val0 other.val0
  let t2 ← isub self.val1 other.val1
  some (ofRegs E t1 t2)

/-- `operator+=` (detail/short_vec_scalar_int_2.hpp:102-107) -/
def opAddAssign (E : FEnv) (self : V) (other : V) : Option V := do
  let t1 ← iadd self.val0 other.val0
  let val0 : BitVec 32 := t1
  let t2 ← iadd self.val1 other.val1
  let val1 : BitVec 32 := t2
  some ⟨val0, val1⟩

/-- `operator+` (detail/short_vec_scalar_int_2.hpp:109-115) -/
def opAdd (E : FEnv) (self : V) (other : V) : Option V := do
  let t1 ← iadd self.val0 other.val0
  let t2 ← iadd self.val1 other.val1
  some (ofRegs E t1 t2)

/-- `operator*=` (detail/short_vec_scalar_int_2.hpp:117-122) -/
def opMulAssign (E : FEnv) (self : V) (other : V) : Option V := do
  let t1 ← imul self.val0 other.val0
  let val0 : BitVec 32 := t1
  let t2 ← imul self.val1 other.val1
  let val1 : BitVec 32 := t2
  some ⟨val0, val1⟩

/-- `operator*` (detail/short_vec_scalar_int_2.hpp:124-130) -/
def opMul (E : FEnv) (self : V) (other : V) : Option V := do
  let t1 ← imul self.val0 other.val0
  let t2 ← imul self.val1 other.val1
  some (ofRegs E t1 t2)

/-- `operator/=` (detail/short_vec_scalar_int_2.hpp:132-137) -/
def opDivAssign (E : FEnv) (self : V) (other : V) : Option V := do
  let t1 ← idiv self.val0 other.val0
  let val0 : BitVec 32 := t1
  let t2 ← idiv self.val1 other.val1
  let val1 : BitVec 32 := t2
  some ⟨val0, val1⟩

/-- `operator/` (detail/short_vec_scalar_int_2.hpp:139-145) -/
def opDiv (E : FEnv) (self : V) (other : V) : Option V := do
  let t1 ← idiv self.val0 other.val0
  let t2 ← idiv self.val1 other.val1
  some (ofRegs E t1 t2)

/-- `load_aligned` (detail/short_vec_scalar_int_2.hpp:162-166) -/
def load_aligned (E : FEnv) (m : Mem 32) (self : V) (data : Int) : Option V := do
  let v1 ← load E m self data
  some ⟨v1.val0, v1.val1⟩

/-- `store_aligned` (detail/short_vec_scalar_int_2.hpp:175-179) -/
def store_aligned (E : FEnv) (self : V) (data : Int) : Option (Writes 32) := do
  let w1 ← store E self data
  some w1

/-- `store_nt` (detail/short_vec_scalar_int_2.hpp:181-185) -/
def store_nt (E : FEnv) (self : V) (data : Int) : Option (Writes 32) := do
  let w1 ← store E self data
  some w1

/-- `gather` (detail/short_vec_scalar_int_2.hpp:187-192) -/
def gather (E : FEnv) (m : Mem 32) (mo : Mem 32) (self : V) (ptr : Int) (offsets : Int) : Option V := do
  let t1 ← mo (offsets + 0)
  let t2 ← m (ptr + t1.toInt)
  let val0 : BitVec 32 := t2
  let t3 ← mo (offsets + 1)
  let t4 ← m (ptr + t3.toInt)
  let val1 : BitVec 32 := t4
  some ⟨val0, val1⟩

/-- `scatter` (detail/short_vec_scalar_int_2.hpp:194-199) -/
def scatter (E : FEnv) (mo : Mem 32) (self : V) (ptr : Int) (offsets : Int) : Option (Writes 32) := do
  let t1 ← mo (offsets + 0)
  let t2 ← mo (offsets + 1)
  some ([(ptr + t1.toInt, self.val0)] ++ [(ptr + t2.toInt, self.val1)])

/-- `operator<<`, free function (detail/short_vec_scalar_int_2.hpp:205-209) -/
def opStore (E : FEnv) (data : Int) (vec : V) : Option (Writes 32) := do
  let w1 ← store E vec data
  some w1

/-- `sqrt`, free function (detail/short_vec_scalar_int_2.hpp:215-219) -/
def sqrtFn (E : FEnv) (vec : V) : V := sqrt E vec

/-- `operator<<`, free function (detail/short_vec_scalar_int_2.hpp:227-236) -/
def print (E : FEnv) (vec : V) : List (Out 32) := [.s "[", .v vec.val0, .s ", ", .v vec.val1, .s "]"]

end LFA.SV.ScalarInt2

namespace LFA.SV.ScalarInt4

/-- members of `short_vec<int, 4>` (detail/short_vec_scalar_int_4.hpp:54) -/
structure V where
  val0 : BitVec 32
  val1 : BitVec 32
  val2 : BitVec 32
  val3 : BitVec 32

/-- lanes, from low to high -/
def V.lanes (v : V) : List (BitVec 32) := [v.val0, v.val1, v.val2, v.val3]

/-- constructor (detail/short_vec_scalar_int_4.hpp:66-72) -/
def bcast (E : FEnv) (data : BitVec 32) : V := ⟨data, data, data, data⟩

/-- constructor (detail/short_vec_scalar_int_4.hpp:80-90) -/
def ofRegs (E : FEnv) (val1 : BitVec 32) (val2 : BitVec 32) (val3 : BitVec 32) (val4 : BitVec 32) : V :=
  ⟨val1, val2, val3, val4⟩

/-- `load` (detail/short_vec_scalar_int_4.hpp:187-194) -/
def load (E : FEnv) (m : Mem 32) (self : V) (data : Int) : Option V := do
  let t1 ← m (data + 0)
  let val0 : BitVec 32 := t1
  let t2 ← m (data + 1)
  let val1 : BitVec 32 := t2
  let t3 ← m (data + 2)
  let val2 : BitVec 32 := t3
  let t4 ← m (data + 3)
  let val3 : BitVec 32 := t4
  some ⟨val0, val1, val2, val3⟩

/-- `store` (detail/short_vec_scalar_int_4.hpp:202-209) -/
def store (E : FEnv) (self : V) (data : Int) : Option (Writes 32) :=
  some ([(data + 0, self.val0)] ++ [(data + 1, self.val1)] ++ [(data + 2, self.val2)] ++ [(data + 3, self.val3)])

/-- `sqrt` (detail/short_vec_scalar_int_4.hpp:177-185) -/
def sqrt (E : FEnv) (self : V) : V :=
  ofRegs E (E.f64.toIntT (E.f64.sqrt (E.f64.ofInt self.val0))) (E.f64.toIntT (E.f64.sqrt (E.f64.ofInt self.val1)))
      (E.f64.toIntT (E.f64.sqrt (E.f64.ofInt self.val2))) (E.f64.toIntT (E.f64.sqrt (E.f64.ofInt self.val3)))

/-- constructor (detail/short_vec_scalar_int_4.hpp:74-78) -/
def ofPtr (E : FEnv) (m : Mem 32) (data : Int) : Option V := do
  let v1 ← load E m ⟨(uninit : BitVec 32), (uninit : BitVec 32), (uninit : BitVec 32), (uninit : BitVec 32)⟩ data
  some ⟨v1.val0, v1.val1, v1.val2, v1.val3⟩

/-- constructor (detail/short_vec_scalar_int_4.hpp:93-98) -/
def ofList (E : FEnv) (m : Mem 32) (il : Int) : Option V := do
  let v1 ← load E m ⟨(uninit : BitVec 32), (uninit : BitVec 32), (uninit : BitVec 32), (uninit : BitVec 32)⟩ il
  some ⟨v1.val0, v1.val1, v1.val2, v1.val3⟩

/-- `operator-=` (detail/short_vec_scalar_int_4.hpp:101-108) -/
def opSubAssign (E : FEnv) (self : V) (other : V) : Option V := do
  let t1 ← isub self.val0 other.val0
  let val0 : BitVec 32 := t1
  let t2 ← isub self.val1 other.val1
  let val1 : BitVec 32 := t2
  let t3 ← isub self.val2 other.val2
  let val2 : BitVec 32 := t3
  let t4 ← isub self.val3 other.val3
  let val3 : BitVec 32 := t4
  some ⟨val0, val1, val2, val3⟩

/-- `operator-` (detail/short_vec_scalar_int_4.hpp:110-118) -/
def opSub (E : FEnv) (self : V) (other : V) : Option V := do
  let t1 ← isub self.val0 other.val0
  let t2 ← isub self.val1 other.val1
  let t3 ← isub self.val2 other.val2
  let t4 ← isub self.val3 other.val3
  some (ofRegs E t1 t2 t3 t4)

/-- `operator+=` (detail/short_vec_scalar_int_4.hpp:120-127) -/
def opAddAssign (E : FEnv) (self : V) (other : V) : Option V := do
  let t1 ← iadd self.val0 other.val0
  let val0 : BitVec 32 := t1
  let t2 ← iadd self.val1 other.val1
  let val1 : BitVec 32 := t2
  let t3 ← iadd self.val2 other.val2
  let val2 : BitVec 32 := t3
  let t4 ← iadd self.val3 other.val3
  let val3 : BitVec 32 := t4
  some ⟨val0, val1, val2, val3⟩

/-- `operator+` (detail/short_vec_scalar_int_4.hpp:129-137) -/
def opAdd (E : FEnv) (self : V) (other : V) : Option V := do
  let t1 ← iadd self.val0 other.val0
  let t2 ← iadd self.val1 other.val1
  let t3 ← iadd self.val2 other.val2
  let t4 ← iadd self.val3 other.val3
  some (ofRegs E t1 t2 t3 t4)

/-- `operator*=` (detail/short_vec_scalar_int_4.hpp:139-146) -/
def opMulAssign (E : FEnv) (self : V) (other : V) : Option V := do
  let t1 ← imul self.val0 other.val0
  let val0 : BitVec 32 := t1
  let t2 ← imul self.val1 other.val1
  let val1 : BitVec 32 := t2
  let t3 ← imul self.val2 other.val2
  let val2 : BitVec 32 := t3
  let t4 ← imul self.val3 other.val3
  let val3 : BitVec 32 := t4
  some ⟨val0, val1, val2, val3⟩

/-- `operator*` (detail/short_vec_scalar_int_4.hpp:148-156) -/
def opMul (E : FEnv) (self : V) (other : V) : Option V := do
  let t1 ← imul self.val0 other.val0
  let t2 ← imul self.val1 other.val1
  let t3 ← imul self.val2 other.val2
  let t4 ← imul self.val3 other.val3
  some (ofRegs E t1 t2 t3 t4)

/-- `operator/=` (detail/short_vec_scalar_int_4.hpp:158-165) -/
def opDivAssign (E : FEnv) (self : V) (other : V) : Option V := do
  let t1 ← idiv self.val0 other.val0
  let val0 : BitVec 32 := t1
  let t2 ← idiv self.val1 other.val1
  let val1 : BitVec 32 := t2
  let t3 ← idiv self.val2 other.val2
  let val2 : BitVec 32 := t3
  let t4 ← idiv self.val3 other.val3
  let val3 : BitVec 32 := t4
  some ⟨val0, val1, val2, val3⟩

/-- `operator/` (detail/short_vec_scalar_int_4.hpp:167-175) -/
def opDiv (E : FEnv) (self : V) (other : V) : Option V := do
  let t1 ← idiv self.val0 other.val0
  let t2 ← idiv self.val1 other.val1
  let t3 ← idiv self.val2 other.val2
  let t4 ← idiv self.val3 other.val3
  some (ofRegs E t1 t2 t3 t4)

/-- `load_aligned` (detail/short_vec_scalar_int_4.hpp:196-200) -/
def load_aligned (E : FEnv) (m : Mem 32) (self : V) (data : Int) : Option V := do
  let v1 ← load E m self data
  some ⟨v1.val0, v1.val1, v1.val2, v1.val3⟩

/-- `store_aligned` (detail/short_vec_scalar_int_4.hpp:211-215) -/
def store_aligned (E : FEnv) (self : V) (data : Int) : Option (Writes 32) := do
  let w1 ← store E self data
  some w1

/-- `store_nt` (detail/short_vec_scalar_int_4.hpp:217-221) -/
def store_nt (E : FEnv) (self : V) (data : Int) : Option (Writes 32) := do
  let w1 ← store E self data
  some w1

/-- `gather` (detail/short_vec_scalar_int_4.hpp:223-230) -/
def gather (E : FEnv) (m : Mem 32) (mo : Mem 32) (self : V) (ptr : Int) (offsets : Int) : Option V := do
  let t1 ← mo (offsets + 0)
  let t2 ← m (ptr + t1.toInt)
  let val0 : BitVec 32 := t2
  let t3 ← mo (offsets + 1)
  let t4 ← m (ptr + t3.toInt)
  let val1 : BitVec 32 := t4
  let t5 ← mo (offsets + 2)
  let t6 ← m (ptr + t5.toInt)
  let val2 : BitVec 32 := t6
  let t7 ← mo (offsets + 3)
  let t8 ← m (ptr + t7.toInt)
  let val3 : BitVec 32 := t8
  some ⟨val0, val1, val2, val3⟩

/-- `scatter` (detail/short_vec_scalar_int_4.hpp:232-239) -/
def scatter (E : FEnv) (mo : Mem 32) (self : V) (ptr : Int) (offsets : Int) : Option (Writes 32) := do
  let t1 ← mo (offsets + 0)
  let t2 ← mo (offsets + 1)
  let t3 ← mo (offsets + 2)
  let t4 ← mo (offsets + 3)
  some ([(ptr + t1.toInt, self.val0)] ++ [(ptr + t2.toInt, self.val1)] ++ [(ptr + t3.toInt, self.val2)] ++ [(ptr + t4.toInt,
      self.val3)])

/-- `operator<<`, free function (detail/short_vec_scalar_int_4.hpp:245-249) -/
def opStore (E : FEnv) (data : Int) (vec : V) : Option (Writes 32) := do
  let w1 ← store E vec data
  some w1

/-- `sqrt`, free function (detail/short_vec_scalar_int_4.hpp:255-259) -/
def sqrtFn (E : FEnv) (vec : V) : V := sqrt E vec

/-- `operator<<`, free function (detail/short_vec_scalar_int_4.hpp:267-278) -/
def print (E : FEnv) (vec : V) : List (Out 32) :=
  [.s "[", .v vec.val0, .s ", ", .v vec.val1, .s ", ", .v vec.val2, .s ", ", .v vec.val3, .s "]"]

end LFA.SV.ScalarInt4

namespace LFA.SV.ScalarInt8

/-- members of `short_vec<int, 8>` (detail/short_vec_scalar_int_8.hpp:56) -/
structure V where
  val0 : BitVec 32
  val1 : BitVec 32
  val2 : BitVec 32
  val3 : BitVec 32
  val4 : BitVec 32
  val5 : BitVec 32
  val6 : BitVec 32
  val7 : BitVec 32

/-- lanes, from low to high -/
def V.lanes (v : V) : List (BitVec 32) := [v.val0, v.val1, v.val2, v.val3, v.val4, v.val5, v.val6, v.val7]

/-- constructor (detail/short_vec_scalar_int_8.hpp:68-78) -/
def bcast (E : FEnv) (data : BitVec 32) : V := ⟨data, data, data, data, data, data, data, data⟩

/-- constructor (detail/short_vec_scalar_int_8.hpp:86-104) -/
def ofRegs (E : FEnv) (val1 : BitVec 32) (val2 : BitVec 32) (val3 : BitVec 32) (val4 : BitVec 32) (val5 : BitVec 32) (val6 :
    BitVec 32) (val7 : BitVec 32) (val8 : BitVec 32) : V :=
  ⟨val1, val2, val3, val4, val5, val6, val7, val8⟩

/-- `load` (detail/short_vec_scalar_int_8.hpp:245-256) -/
def load (E : FEnv) (m : Mem 32) (self : V) (data : Int) : Option V := do
  let t1 ← m (data + 0)
  let val0 : BitVec 32 := t1
  let t2 ← m (data + 1)
  let val1 : BitVec 32 := t2
  let t3 ← m (data + 2)
  let val2 : BitVec 32 := t3
  let t4 ← m (data + 3)
  let val3 : BitVec 32 := t4
  let t5 ← m (data + 4)
  let val4 : BitVec 32 := t5
  let t6 ← m (data + 5)
  let val5 : BitVec 32 := t6
  let t7 ← m (data + 6)
  let val6 : BitVec 32 := t7
  let t8 ← m (data + 7)
  let val7 : BitVec 32 := t8
  some ⟨val0, val1, val2, val3, val4, val5, val6, val7⟩

/-- `store` (detail/short_vec_scalar_int_8.hpp:264-275) -/
def store (E : FEnv) (self : V) (data : Int) : Option (Writes 32) :=
  some ([(data + 0, self.val0)] ++ [(data + 1, self.val1)] ++ [(data + 2, self.val2)] ++ [(data + 3, self.val3)] ++ [(data + 4,
      self.val4)] ++ [(data + 5, self.val5)] ++ [(data + 6, self.val6)] ++ [(data + 7, self.val7)])

/-- `sqrt` (detail/short_vec_scalar_int_8.hpp:228-240) -/
def sqrt (E : FEnv) (self : V) : V :=
  ofRegs E (E.f64.toIntT (E.f64.sqrt (E.f64.ofInt self.val0))) (E.f64.toIntT (E.f64.sqrt (E.f64.ofInt self.val1)))
      (E.f64.toIntT (E.f64.sqrt (E.f64.ofInt self.val2))) (E.f64.toIntT (E.f64.sqrt (E.f64.ofInt self.val3))) (E.f64.toIntT
      (E.f64.sqrt (E.f64.ofInt self.val4))) (E.f64.toIntT (E.f64.sqrt (E.f64.ofInt self.val5))) (E.f64.toIntT (E.f64.sqrt
      (E.f64.ofInt self.val6))) (E.f64.toIntT (E.f64.sqrt (E.f64.ofInt self.val7)))

/-- constructor (detail/short_vec_scalar_int_8.hpp:80-84) -/
def ofPtr (E : FEnv) (m : Mem 32) (data : Int) : Option V := do
  let v1 ← load E m ⟨(uninit : BitVec 32), (uninit : BitVec 32), (uninit : BitVec 32), (uninit : BitVec 32), (uninit : BitVec
      32), (uninit : BitVec 32), (uninit : BitVec 32), (uninit : BitVec 32)⟩ data
  some ⟨v1.val0, v1.val1, v1.val2, v1.val3, v1.val4, v1.val5, v1.val6, v1.val7⟩

/-- constructor (detail/short_vec_scalar_int_8.hpp:107-112) -/
def ofList (E : FEnv) (m : Mem 32) (il : Int) : Option V := do
  let v1 ← load E m ⟨(uninit : BitVec 32), (uninit : BitVec 32), (uninit : BitVec 32), (uninit : BitVec 32), (uninit : BitVec
      32), (uninit : BitVec 32), (uninit : BitVec 32), (uninit : BitVec 32)⟩ il
  some ⟨v1.val0, v1.val1, v1.val2, v1.val3, v1.val4, v1.val5, v1.val6, v1.val7⟩

/-- `operator-=` (detail/short_vec_scalar_int_8.hpp:115-126) -/
def opSubAssign (E : FEnv) (self : V) (other : V) : Option V := do
  let t1 ← isub self.val0 other.val0
  let val0 : BitVec 32 := t1
  let t2 ← isub self.val1 other.val1
  let val1 : BitVec 32 := t2
  let t3 ← isub self.val2 other.val2
  let val2 : BitVec 32 := t3
  let t4 ← isub self.val3 other.val3
  let val3 : BitVec 32 := t4
  let t5 ← isub self.val4 other.val4
  let val4 : BitVec 32 := t5
  let t6 ← isub self.val5 other.val5
  let val5 : BitVec 32 := t6
  let t7 ← isub self.val6 other.val6
  let val6 : BitVec 32 := t7
  let t8 ← isub self.val7 other.val7
  let val7 : BitVec 32 := t8
  some ⟨val0, val1, val2, val3, val4, val5, val6, val7⟩

/-- `operator-` (detail/short_vec_scalar_int_8.hpp:128-140) -/
def opSub (E : FEnv) (self : V) (other : V) : Option V := do
  let t1 ← isub self.val0 other.val0
  let t2 ← isub self.val1 other.val1
  let t3 ← isub self.val2 other.val2
  let t4 ← isub self.val3 other.val3
  let t5 ← isub self.val4 other.val4
  let t6 ← isub self.val5 other.val5
  let t7 ← isub self.val6 other.val6
  let t8 ← isub self.val7 other.val7
  some (ofRegs E t1 t2 t3 t4 t5 t6 t7 t8)

/-- `operator+=` (detail/short_vec_scalar_int_8.hpp:142-153) -/
def opAddAssign (E : FEnv) (self : V) (other : V) : Option V := do
  let t1 ← iadd self.val0 other.val0
  let val0 : BitVec 32 := t1
  let t2 ← iadd self.val1 other.val1
  let val1 : BitVec 32 := t2
  let t3 ← iadd self.val2 other.val2
  let val2 : BitVec 32 := t3
  let t4 ← iadd self.val3 other.val3
  let val3 : BitVec 32 := t4
  let t5 ← iadd self.val4 other.val4
  let val4 : BitVec 32 := t5
  let t6 ← iadd self.val5 other.val5
  let val5 : BitVec 32 := t6
  let t7 ← iadd self.val6 other.val6
  let val6 : BitVec 32 := t7
  let t8 ← iadd self.val7 other.val7
  let val7 : BitVec 32 := t8
  some ⟨val0, val1, val2, val3, val4, val5, val6, val7⟩

/-- `operator+` (detail/short_vec_scalar_int_8.hpp:155-167) -/
def opAdd (E : FEnv) (self : V) (other : V) : Option V := do
  let t1 ← iadd self.val0 other.val0
  let t2 ← iadd self.val1 other.val1
  let t3 ← iadd self.val2 other.val2
  let t4 ← iadd self.val3 other.val3
  let t5 ← iadd self.val4 other.val4
  let t6 ← iadd self.val5 other.val5
  let t7 ← iadd self.val6 other.val6
  let t8 ← iadd self.val7 other.val7
  some (ofRegs E t1 t2 t3 t4 t5 t6 t7 t8)

/-- `operator*=` (detail/short_vec_scalar_int_8.hpp:169-180) -/
def opMulAssign (E : FEnv) (self : V) (other : V) : Option V := do
  let t1 ← imul self.val0 other.val0
  let val0 : BitVec 32 := t1
  let t2 ← imul self.val1 other.val1
  let val1 : BitVec 32 := t2
  let t3 ← imul self.val2 other.val2
  let val2 : BitVec 32 := t3
  let t4 ← imul self.val3 other.val3
  let val3 : BitVec 32 := t4
  let t5 ← imul self.val4 other.val4
  let val4 : BitVec 32 := t5
  let t6 ← imul self.val5 other.val5
  let val5 : BitVec 32 := t6
  let t7 ← imul self.val6 other.val6
  let val6 : BitVec 32 := t7
  let t8 ← imul self.val7 other.val7
  let val7 : BitVec 32 := t8
  some ⟨val0, val1, val2, val3, val4, val5, val6, val7⟩

/-- `operator*` (detail/short_vec_scalar_int_8.hpp:182-194) -/
def opMul (E : FEnv) (self : V) (other : V) : Option V := do
  let t1 ← imul self.val0 other.val0
  let t2 ← imul self.val1 other.val1
  let t3 ← imul self.val2 other.val2
  let t4 ← imul self.val3 other.val3
  let t5 ← imul self.val4 other.val4
  let t6 ← imul self.val5 other.val5
  let t7 ← imul self.val6 other.val6
  let t8 ← imul self.val7 other.val7
  some (ofRegs E t1 t2 t3 t4 t5 t6 t7 t8)

/-- `operator/=` (detail/short_vec_scalar_int_8.hpp:196-207) -/
def opDivAssign (E : FEnv) (self : V) (other : V) : Option V := do
  let t1 ← idiv self.val0 other.val0
  let val0 : BitVec 32 := t1
  let t2 ← idiv self.val1 other.val1
  let val1 : BitVec 32 := t2
  let t3 ← idiv self.val2 other.val2
  let val2 : BitVec 32 := t3
  let t4 ← idiv self.val3 other.val3
  let val3 : BitVec 32 := t4
  let t5 ← idiv self.val4 other.val4
  let val4 : BitVec 32 := t5
  let t6 ← idiv self.val5 other.val5
  let val5 : BitVec 32 := t6
  let t7 ← idiv self.val6 other.val6
  let val6 : BitVec 32 := t7
  let t8 ← idiv self.val7 other.val7
  let val7 : BitVec 32 := t8
  some ⟨val0, val1, val2, val3, val4, val5, val6, val7⟩

/-- `operator/` (detail/short_vec_scalar_int_8.hpp:209-221) -/
def opDiv (E : FEnv) (self : V) (other : V) : Option V := do
  let t1 ← idiv self.val0 other.val0
  let t2 ← idiv self.val1 other.val1
  let t3 ← idiv self.val2 other.val2
  let t4 ← idiv self.val3 other.val3
  let t5 ← idiv self.val4 other.val4
  let t6 ← idiv self.val5 other.val5
  let t7 ← idiv self.val6 other.val6
  let t8 ← idiv self.val7 other.val7
  some (ofRegs E t1 t2 t3 t4 t5 t6 t7 t8)

/-- `load_aligned` (detail/short_vec_scalar_int_8.hpp:258-262) -/
def load_aligned (E : FEnv) (m : Mem 32) (self : V) (data : Int) : Option V := do
  let v1 ← load E m self data
  some ⟨v1.val0, v1.val1, v1.val2, v1.val3, v1.val4, v1.val5, v1.val6, v1.val7⟩

/-- `store_aligned` (detail/short_vec_scalar_int_8.hpp:277-281) -/
def store_aligned (E : FEnv) (self : V) (data : Int) : Option (Writes 32) := do
  let w1 ← store E self data
  some w1

/-- `store_nt` (detail/short_vec_scalar_int_8.hpp:283-287) -/
def store_nt (E : FEnv) (self : V) (data : Int) : Option (Writes 32) := do
  let w1 ← store E self data
  some w1

/-- `gather` (detail/short_vec_scalar_int_8.hpp:289-300) -/
def gather (E : FEnv) (m : Mem 32) (mo : Mem 32) (self : V) (ptr : Int) (offsets : Int) : Option V := do
  let t1 ← mo (offsets + 0)
  let t2 ← m (ptr + t1.toInt)
  let val0 : BitVec 32 := t2
  let t3 ← mo (offsets + 1)
  let t4 ← m (ptr + t3.toInt)
  let val1 : BitVec 32 := t4
  let t5 ← mo (offsets + 2)
  let t6 ← m (ptr + t5.toInt)
  let val2 : BitVec 32 := t6
  let t7 ← mo (offsets + 3)
  let t8 ← m (ptr + t7.toInt)
  let val3 : BitVec 32 := t8
  let t9 ← mo (offsets + 4)
  let t10 ← m (ptr + t9.toInt)
  let val4 : BitVec 32 := t10
  let t11 ← mo (offsets + 5)
  let t12 ← m (ptr + t11.toInt)
  let val5 : BitVec 32 := t12
  let t13 ← mo (offsets + 6)
  let t14 ← m (ptr + t13.toInt)
  let val6 : BitVec 32 := t14
  let t15 ← mo (offsets + 7)
  let t16 ← m (ptr + t15.toInt)
  let val7 : BitVec 32 := t16
  some ⟨val0, val1, val2, val3, val4, val5, val6, val7⟩

/-- `scatter` (detail/short_vec_scalar_int_8.hpp:302-313) -/
def scatter (E : FEnv) (mo : Mem 32) (self : V) (ptr : Int) (offsets : Int) : Option (Writes 32) := do
  let t1 ← mo (offsets + 0)
  let t2 ← mo (offsets + 1)
  let t3 ← mo (offsets + 2)
  let t4 ← mo (offsets + 3)
  let t5 ← mo (offsets + 4)
  let t6 ← mo (offsets + 5)
  let t7 ← mo (offsets + 6)
  let t8 ← mo (offsets + 7)
  some ([(ptr + t1.toInt, self.val0)] ++ [(ptr + t2.toInt, self.val1)] ++ [(ptr + t3.toInt, self.val2)] ++ [(ptr + t4.toInt,
      self.val3)] ++ [(ptr + t5.toInt, self.val4)] ++ [(ptr + t6.toInt, self.val5)] ++ [(ptr + t7.toInt, self.val6)] ++ [(ptr +
      t8.toInt, self.val7)])

/-- `operator<<`, free function (detail/short_vec_scalar_int_8.hpp:319-323) -/
def opStore (E : FEnv) (data : Int) (vec : V) : Option (Writes 32) := do
  let w1 ← store E vec data
  some w1

/-- `sqrt`, free function (detail/short_vec_scalar_int_8.hpp:335-339) -/
def sqrtFn (E : FEnv) (vec : V) : V := sqrt E vec

/-- `operator<<`, free function (detail/short_vec_scalar_int_8.hpp:341-350) -/
def print (E : FEnv) (vec : V) : List (Out 32) :=
  [.s "[", .v vec.val0, .s ", ", .v vec.val1, .s ", ", .v vec.val2, .s ", ", .v vec.val3, .s ", ", .v vec.val4, .s ", ", .v
      vec.val5, .s ", ", .v vec.val6, .s ", ", .v vec.val7, .s "]"]

end LFA.SV.ScalarInt8

namespace LFA.SV.ScalarInt16

/-- members of `short_vec<int, 16>` (detail/short_vec_scalar_int_16.hpp:56) -/
structure V where
  val0 : BitVec 32
  val1 : BitVec 32
  val2 : BitVec 32
  val3 : BitVec 32
  val4 : BitVec 32
  val5 : BitVec 32
  val6 : BitVec 32
  val7 : BitVec 32
  val8 : BitVec 32
  val9 : BitVec 32
  val10 : BitVec 32
  val11 : BitVec 32
  val12 : BitVec 32
  val13 : BitVec 32
  val14 : BitVec 32
  val15 : BitVec 32

/-- lanes, from low to high -/
def V.lanes (v : V) : List (BitVec 32) := [v.val0, v.val1, v.val2, v.val3, v.val4, v.val5, v.val6, v.val7, v.val8, v.val9,
    v.val10, v.val11, v.val12, v.val13, v.val14, v.val15]

/-- constructor (detail/short_vec_scalar_int_16.hpp:68-86) -/
def bcast (E : FEnv) (data : BitVec 32) : V :=
  ⟨data, data, data, data, data, data, data, data, data, data, data, data, data, data, data, data⟩

/-- constructor (detail/short_vec_scalar_int_16.hpp:94-128) -/
def ofRegs (E : FEnv) (val1 : BitVec 32) (val2 : BitVec 32) (val3 : BitVec 32) (val4 : BitVec 32) (val5 : BitVec 32) (val6 :
    BitVec 32) (val7 : BitVec 32) (val8 : BitVec 32) (val9 : BitVec 32) (val10 : BitVec 32) (val11 : BitVec 32) (val12 : BitVec
    32) (val13 : BitVec 32) (val14 : BitVec 32) (val15 : BitVec 32) (val16 : BitVec 32) : V :=
  ⟨val1, val2, val3, val4, val5, val6, val7, val8, val9, val10, val11, val12, val13, val14, val15, val16⟩

/-- `load` (detail/short_vec_scalar_int_16.hpp:333-352) -/
def load (E : FEnv) (m : Mem 32) (self : V) (data : Int) : Option V := do
  let t1 ← m (data + 0)
  let val0 : BitVec 32 := t1
  let t2 ← m (data + 1)
  let val1 : BitVec 32 := t2
  let t3 ← m (data + 2)
  let val2 : BitVec 32 := t3
  let t4 ← m (data + 3)
  let val3 : BitVec 32 := t4
  let t5 ← m (data + 4)
  let val4 : BitVec 32 := t5
  let t6 ← m (data + 5)
  let val5 : BitVec 32 := t6
  let t7 ← m (data + 6)
  let val6 : BitVec 32 := t7
  let t8 ← m (data + 7)
  let val7 : BitVec 32 := t8
  let t9 ← m (data + 8)
  let val8 : BitVec 32 := t9
  let t10 ← m (data + 9)
  let val9 : BitVec 32 := t10
  let t11 ← m (data + 10)
  let val10 : BitVec 32 := t11
  let t12 ← m (data + 11)
  let val11 : BitVec 32 := t12
  let t13 ← m (data + 12)
  let val12 : BitVec 32 := t13
  let t14 ← m (data + 13)
  let val13 : BitVec 32 := t14
  let t15 ← m (data + 14)
  let val14 : BitVec 32 := t15
  let t16 ← m (data + 15)
  let val15 : BitVec 32 := t16
  some ⟨val0, val1, val2, val3, val4, val5, val6, val7, val8, val9, val10, val11, val12, val13, val14, val15⟩

/-- `store` (detail/short_vec_scalar_int_16.hpp:360-379) -/
def store (E : FEnv) (self : V) (data : Int) : Option (Writes 32) :=
  some ([(data + 0, self.val0)] ++ [(data + 1, self.val1)] ++ [(data + 2, self.val2)] ++ [(data + 3, self.val3)] ++ [(data + 4,
      self.val4)] ++ [(data + 5, self.val5)] ++ [(data + 6, self.val6)] ++ [(data + 7, self.val7)] ++ [(data + 8, self.val8)]
      ++ [(data + 9, self.val9)] ++ [(data + 10, self.val10)] ++ [(data + 11, self.val11)] ++ [(data + 12, self.val12)] ++
      [(data + 13, self.val13)] ++ [(data + 14, self.val14)] ++ [(data + 15, self.val15)])

/-- `sqrt` (detail/short_vec_scalar_int_16.hpp:311-331) -/
def sqrt (E : FEnv) (self : V) : V :=
  ofRegs E (E.f64.toIntT (E.f64.sqrt (E.f64.ofInt self.val0))) (E.f64.toIntT (E.f64.sqrt (E.f64.ofInt self.val1)))
      (E.f64.toIntT (E.f64.sqrt (E.f64.ofInt self.val2))) (E.f64.toIntT (E.f64.sqrt (E.f64.ofInt self.val3))) (E.f64.toIntT
      (E.f64.sqrt (E.f64.ofInt self.val4))) (E.f64.toIntT (E.f64.sqrt (E.f64.ofInt self.val5))) (E.f64.toIntT (E.f64.sqrt
      (E.f64.ofInt self.val6))) (E.f64.toIntT (E.f64.sqrt (E.f64.ofInt self.val7))) (E.f64.toIntT (E.f64.sqrt (E.f64.ofInt
      self.val8))) (E.f64.toIntT (E.f64.sqrt (E.f64.ofInt self.val9))) (E.f64.toIntT (E.f64.sqrt (E.f64.ofInt self.val10)))
      (E.f64.toIntT (E.f64.sqrt (E.f64.ofInt self.val11))) (E.f64.toIntT (E.f64.sqrt (E.f64.ofInt self.val12))) (E.f64.toIntT
      (E.f64.sqrt (E.f64.ofInt self.val13))) (E.f64.toIntT (E.f64.sqrt (E.f64.ofInt self.val14))) (E.f64.toIntT (E.f64.sqrt
      (E.f64.ofInt self.val15)))

/-- constructor (detail/short_vec_scalar_int_16.hpp:88-92) -/
def ofPtr (E : FEnv) (m : Mem 32) (data : Int) : Option V := do
  let v1 ← load E m ⟨(uninit : BitVec 32), (uninit : BitVec 32), (uninit : BitVec 32), (uninit : BitVec 32), (uninit : BitVec
      32), (uninit : BitVec 32), (uninit : BitVec 32), (uninit : BitVec 32), (uninit : BitVec 32), (uninit : BitVec 32),
      (uninit : BitVec 32), (uninit : BitVec 32), (uninit : BitVec 32), (uninit : BitVec 32), (uninit : BitVec 32), (uninit :
      BitVec 32)⟩ data
  some ⟨v1.val0, v1.val1, v1.val2, v1.val3, v1.val4, v1.val5, v1.val6, v1.val7, v1.val8, v1.val9, v1.val10, v1.val11, v1.val12,
      v1.val13, v1.val14, v1.val15⟩

/-- constructor (detail/short_vec_scalar_int_16.hpp:131-136) -/
def ofList (E : FEnv) (m : Mem 32) (il : Int) : Option V := do
  let v1 ← load E m ⟨(uninit : BitVec 32), (uninit : BitVec 32), (uninit : BitVec 32), (uninit : BitVec 32), (uninit : BitVec
      32), (uninit : BitVec 32), (uninit : BitVec 32), (uninit : BitVec 32), (uninit : BitVec 32), (uninit : BitVec 32),
      (uninit : BitVec 32), (uninit : BitVec 32), (uninit : BitVec 32), (uninit : BitVec 32), (uninit : BitVec 32), (uninit :
      BitVec 32)⟩ il
  some ⟨v1.val0, v1.val1, v1.val2, v1.val3, v1.val4, v1.val5, v1.val6, v1.val7, v1.val8, v1.val9, v1.val10, v1.val11, v1.val12,
      v1.val13, v1.val14, v1.val15⟩

/-- `operator-=` (detail/short_vec_scalar_int_16.hpp:139-158) -/
def opSubAssign (E : FEnv) (self : V) (other : V) : Option V := do
  let t1 ← isub self.val0 other.val0
  let val0 : BitVec 32 := t1
  let t2 ← isub self.val1 other.val1
  let val1 : BitVec 32 := t2
  let t3 ← isub self.val2 other.val2
  let val2 : BitVec 32 := t3
  let t4 ← isub self.val3 other.val3
  let val3 : BitVec 32 := t4
  let t5 ← isub self.val4 other.val4
  let val4 : BitVec 32 := t5
  let t6 ← isub self.val5 other.val5
  let val5 : BitVec 32 := t6
  let t7 ← isub self.val6 other.val6
  let val6 : BitVec 32 := t7
  let t8 ← isub self.val7 other.val7
  let val7 : BitVec 32 := t8
  let t9 ← isub self.val8 other.val8
  let val8 : BitVec 32 := t9
  let t10 ← isub self.val9 other.val9
  let val9 : BitVec 32 := t10
  let t11 ← isub self.val10 other.val10
  let val10 : BitVec 32 := t11
  let t12 ← isub self.val11 other.val11
  let val11 : BitVec 32 := t12
  let t13 ← isub self.val12 other.val12
  let val12 : BitVec 32 := t13
  let t14 ← isub self.val13 other.val13
  let val13 : BitVec 32 := t14
  let t15 ← isub self.val14 other.val14
  let val14 : BitVec 32 := t15
  let t16 ← isub self.val15 other.val15
  let val15 : BitVec 32 := t16
  some ⟨val0, val1, val2, val3, val4, val5, val6, val7, val8, val9, val10, val11, val12, val13, val14, val15⟩

/-- `operator-` (detail/short_vec_scalar_int_16.hpp:160-180) -/
def opSub (E : FEnv) (self : V) (other : V) : Option V := do
  let t1 ← isub self.val0 other.val0
  let t2 ← isub self.val1 other.val1
  let t3 ← isub self.val2 other.val2
  let t4 ← isub self.val3 other.val3
  let t5 ← isub self.val4 other.val4
  let t6 ← isub self.val5 other.val5
  let t7 ← isub self.val6 other.val6
  let t8 ← isub self.val7 other.val7
  let t9 ← isub self.val8 other.val8
  let t10 ← isub self.val9 other.val9
  let t11 ← isub self.val10 other.val10
  let t12 ← isub self.val11 other.val11
  let t13 ← isub self.val12 other.val12
  let t14 ← isub self.val13 other.val13
  let t15 ← isub self.val14 other.val14
  let t16 ← isub self.val15 other.val15
  some (ofRegs E t1 t2 t3 t4 t5 t6 t7 t8 t9 t10 t11 t12 t13 t14 t15 t16)

/-- `operator+=` (detail/short_vec_scalar_int_16.hpp:182-201) -/
def opAddAssign (E : FEnv) (self : V) (other : V) : Option V := do
  let t1 ← iadd self.val0 other.val0
  let val0 : BitVec 32 := t1
  let t2 ← iadd self.val1 other.val1
  let val1 : BitVec 32 := t2
  let t3 ← iadd self.val2 other.val2
  let val2 : BitVec 32 := t3
  let t4 ← iadd self.val3 other.val3
  let val3 : BitVec 32 := t4
  let t5 ← iadd self.val4 other.val4
  let val4 : BitVec 32 := t5
  let t6 ← iadd self.val5 other.val5
  let val5 : BitVec 32 := t6
  let t7 ← iadd self.val6 other.val6
  let val6 : BitVec 32 := t7
  let t8 ← iadd self.val7 other.val7
  let val7 : BitVec 32 := t8
  let t9 ← iadd self.val8 other.val8
  let val8 : BitVec 32 := t9
  let t10 ← iadd self.val9 other.val9
  let val9 : BitVec 32 := t10
  let t11 ← iadd self.val10 other.val10
  let val10 : BitVec 32 := t11
  let t12 ← iadd self.val11 other.val11
  let val11 : BitVec 32 := t12
  let t13 ← iadd self.val12 other.val12
  let val12 : BitVec 32 := t13
  let t14 ← iadd self.val13 other.val13
  let val13 : BitVec 32 := t14
  let t15 ← iadd self.val14 other.val14
  let val14 : BitVec 32 := t15
  let t16 ← iadd self.val15 other.val15
  let val15 : BitVec 32 := t16
  some ⟨val0, val1, val2, val3, val4, val5, val6, val7, val8, val9, val10, val11, val12, val13, val14, val15⟩

/-- `operator+` (detail/short_vec_scalar_int_16.hpp:203-223) -/
def opAdd (E : FEnv) (self : V) (other : V) : Option V := do
  let t1 ← iadd self.val0 other.val0
  let t2 ← iadd self.val1 other.val1
  let t3 ← iadd self.val2 other.val2
  let t4 ← iadd self.val3 other.val3
  let t5 ← iadd self.val4 other.val4
  let t6 ← iadd self.val5 other.val5
  let t7 ← iadd self.val6 other.val6
  let t8 ← iadd self.val7 other.val7
  let t9 ← iadd self.val8 other.val8
  let t10 ← iadd self.val9 other.val9
  let t11 ← iadd self.val10 other.val10
  let t12 ← iadd self.val11 other.val11
  let t13 ← iadd self.val12 other.val12
  let t14 ← iadd self.val13 other.val13
  let t15 ← iadd self.val14 other.val14
  let t16 ← iadd self.val15 other.val15
  some (ofRegs E t1 t2 t3 t4 t5 t6 t7 t8 t9 t10 t11 t12 t13 t14 t15 t16)

/-- `operator*=` (detail/short_vec_scalar_int_16.hpp:225-244) -/
def opMulAssign (E : FEnv) (self : V) (other : V) : Option V := do
  let t1 ← imul self.val0 other.val0
  let val0 : BitVec 32 := t1
  let t2 ← imul self.val1 other.val1
  let val1 : BitVec 32 := t2
  let t3 ← imul self.val2 other.val2
  let val2 : BitVec 32 := t3
  let t4 ← imul self.val3 other.val3
  let val3 : BitVec 32 := t4
  let t5 ← imul self.val4 other.val4
  let val4 : BitVec 32 := t5
  let t6 ← imul self.val5 other.val5
  let val5 : BitVec 32 := t6
  let t7 ← imul self.val6 other.val6
  let val6 : BitVec 32 := t7
  let t8 ← imul self.val7 other.val7
  let val7 : BitVec 32 := t8
  let t9 ← imul self.val8 other.val8
  let val8 : BitVec 32 := t9
  let t10 ← imul self.val9 other.val9
  let val9 : BitVec 32 := t10
  let t11 ← imul self.val10 other.val10
  let val10 : BitVec 32 := t11
  let t12 ← imul self.val11 other.val11
  let val11 : BitVec 32 := t12
  let t13 ← imul self.val12 other.val12
  let val12 : BitVec 32 := t13
  let t14 ← imul self.val13 other.val13
  let val13 : BitVec 32 := t14
  let t15 ← imul self.val14 other.val14
  let val14 : BitVec 32 := t15
  let t16 ← imul self.val15 other.val15
  let val15 : BitVec 32 := t16
  some ⟨val0, val1, val2, val3, val4, val5, val6, val7, val8, val9, val10, val11, val12, val13, val14, val15⟩

/-- `operator*` (detail/short_vec_scalar_int_16.hpp:246-266) -/
def opMul (E : FEnv) (self : V) (other : V) : Option V := do
  let t1 ← imul self.val0 other.val0
  let t2 ← imul self.val1 other.val1
  let t3 ← imul self.val2 other.val2
  let t4 ← imul self.val3 other.val3
  let t5 ← imul self.val4 other.val4
  let t6 ← imul self.val5 other.val5
  let t7 ← imul self.val6 other.val6
  let t8 ← imul self.val7 other.val7
  let t9 ← imul self.val8 other.val8
  let t10 ← imul self.val9 other.val9
  let t11 ← imul self.val10 other.val10
  let t12 ← imul self.val11 other.val11
  let t13 ← imul self.val12 other.val12
  let t14 ← imul self.val13 other.val13
  let t15 ← imul self.val14 other.val14
  let t16 ← imul self.val15 other.val15
  some (ofRegs E t1 t2 t3 t4 t5 t6 t7 t8 t9 t10 t11 t12 t13 t14 t15 t16)

/-- `operator/=` (detail/short_vec_scalar_int_16.hpp:268-287) -/
def opDivAssign (E : FEnv) (self : V) (other : V) : Option V := do
  let t1 ← idiv self.val0 other.val0
  let val0 : BitVec 32 := t1
  let t2 ← idiv self.val1 other.val1
  let val1 : BitVec 32 := t2
  let t3 ← idiv self.val2 other.val2
  let val2 : BitVec 32 := t3
  let t4 ← idiv self.val3 other.val3
  let val3 : BitVec 32 := t4
  let t5 ← idiv self.val4 other.val4
  let val4 : BitVec 32 := t5
  let t6 ← idiv self.val5 other.val5
  let val5 : BitVec 32 := t6
  let t7 ← idiv self.val6 other.val6
  let val6 : BitVec 32 := t7
  let t8 ← idiv self.val7 other.val7
  let val7 : BitVec 32 := t8
  let t9 ← idiv self.val8 other.val8
  let val8 : BitVec 32 := t9
  let t10 ← idiv self.val9 other.val9
  let val9 : BitVec 32 := t10
  let t11 ← idiv self.val10 other.val10
  let val10 : BitVec 32 := t11
  let t12 ← idiv self.val11 other.val11
  let val11 : BitVec 32 := t12
  let t13 ← idiv self.val12 other.val12
  let val12 : BitVec 32 := t13
  let t14 ← idiv self.val13 other.val13
  let val13 : BitVec 32 := t14
  let t15 ← idiv self.val14 other.val14
  let val14 : BitVec 32 := t15
  let t16 ← idiv self.val15 other.val15
  let val15 : BitVec 32 := t16
  some ⟨val0, val1, val2, val3, val4, val5, val6, val7, val8, val9, val10, val11, val12, val13, val14, val15⟩

/-- `operator/` (detail/short_vec_scalar_int_16.hpp:289-309) -/
def opDiv (E : FEnv) (self : V) (other : V) : Option V := do
  let t1 ← idiv self.val0 other.val0
  let t2 ← idiv self.val1 other.val1
  let t3 ← idiv self.val2 other.val2
  let t4 ← idiv self.val3 other.val3
  let t5 ← idiv self.val4 other.val4
  let t6 ← idiv self.val5 other.val5
  let t7 ← idiv self.val6 other.val6
  let t8 ← idiv self.val7 other.val7
  let t9 ← idiv self.val8 other.val8
  let t10 ← idiv self.val9 other.val9
  let t11 ← idiv self.val10 other.val10
  let t12 ← idiv self.val11 other.val11
  let t13 ← idiv self.val12 other.val12
  let t14 ← idiv self.val13 other.val13
  let t15 ← idiv self.val14 other.val14
  let t16 ← idiv self.val15 other.val15
  some (ofRegs E t1 t2 t3 t4 t5 t6 t7 t8 t9 t10 t11 t12 t13 t14 t15 t16)

/-- `load_aligned` (detail/short_vec_scalar_int_16.hpp:354-358) -/
def load_aligned (E : FEnv) (m : Mem 32) (self : V) (data : Int) : Option V := do
  let v1 ← load E m self data
  some ⟨v1.val0, v1.val1, v1.val2, v1.val3, v1.val4, v1.val5, v1.val6, v1.val7, v1.val8, v1.val9, v1.val10, v1.val11, v1.val12,
      v1.val13, v1.val14, v1.val15⟩

/-- `store_aligned` (detail/short_vec_scalar_int_16.hpp:381-385) -/
def store_aligned (E : FEnv) (self : V) (data : Int) : Option (Writes 32) := do
  let w1 ← store E self data
  some w1

/-- `store_nt` (detail/short_vec_scalar_int_16.hpp:387-391) -/
def store_nt (E : FEnv) (self : V) (data : Int) : Option (Writes 32) := do
  let w1 ← store E self data
  some w1

/-- `gather` (detail/short_vec_scalar_int_16.hpp:393-412) -/
def gather (E : FEnv) (m : Mem 32) (mo : Mem 32) (self : V) (ptr : Int) (offsets : Int) : Option V := do
  let t1 ← mo (offsets + 0)
  let t2 ← m (ptr + t1.toInt)
  let val0 : BitVec 32 := t2
  let t3 ← mo (offsets + 1)
  let t4 ← m (ptr + t3.toInt)
  let val1 : BitVec 32 := t4
  let t5 ← mo (offsets + 2)
  let t6 ← m (ptr + t5.toInt)
  let val2 : BitVec 32 := t6
  let t7 ← mo (offsets + 3)
  let t8 ← m (ptr + t7.toInt)
  let val3 : BitVec 32 := t8
  let t9 ← mo (offsets + 4)
  let t10 ← m (ptr + t9.toInt)
  let val4 : BitVec 32 := t10
  let t11 ← mo (offsets + 5)
  let t12 ← m (ptr + t11.toInt)
  let val5 : BitVec 32 := t12
  let t13 ← mo (offsets + 6)
  let t14 ← m (ptr + t13.toInt)
  let val6 : BitVec 32 := t14
  let t15 ← mo (offsets + 7)
  let t16 ← m (ptr + t15.toInt)
  let val7 : BitVec 32 := t16
  let t17 ← mo (offsets + 8)
  let t18 ← m (ptr + t17.toInt)
  let val8 : BitVec 32 := t18
  let t19 ← mo (offsets + 9)
  let t20 ← m (ptr + t19.toInt)
  let val9 : BitVec 32 := t20
  let t21 ← mo (offsets + 10)
  let t22 ← m (ptr + t21.toInt)
  let val10 : BitVec 32 := t22
  let t23 ← mo (offsets + 11)
  let t24 ← m (ptr + t23.toInt)
  let val11 : BitVec 32 := t24
  let t25 ← mo (offsets + 12)
  let t26 ← m (ptr + t25.toInt)
  let val12 : BitVec 32 := t26
  let t27 ← mo (offsets + 13)
  let t28 ← m (ptr + t27.toInt)
  let val13 : BitVec 32 := t28
  let t29 ← mo (offsets + 14)
  let t30 ← m (ptr + t29.toInt)
  let val14 : BitVec 32 := t30
  let t31 ← mo (offsets + 15)
  let t32 ← m (ptr + t31.toInt)
  let val15 : BitVec 32 := t32
  some ⟨val0, val1, val2, val3, val4, val5, val6, val7, val8, val9, val10, val11, val12, val13, val14, val15⟩

/-- `scatter` (detail/short_vec_scalar_int_16.hpp:414-433) -/
def scatter (E : FEnv) (mo : Mem 32) (self : V) (ptr : Int) (offsets : Int) : Option (Writes 32) := do
  let t1 ← mo (offsets + 0)
  let t2 ← mo (offsets + 1)
  let t3 ← mo (offsets + 2)
  let t4 ← mo (offsets + 3)
  let t5 ← mo (offsets + 4)
  let t6 ← mo (offsets + 5)
  let t7 ← mo (offsets + 6)
  let t8 ← mo (offsets + 7)
  let t9 ← mo (offsets + 8)
  let t10 ← mo (offsets + 9)
  let t11 ← mo (offsets + 10)
  let t12 ← mo (offsets + 11)
  let t13 ← mo (offsets + 12)
  let t14 ← mo (offsets + 13)
  let t15 ← mo (offsets + 14)
  let t16 ← mo (offsets + 15)
  some ([(ptr + t1.toInt, self.val0)] ++ [(ptr + t2.toInt, self.val1)] ++ [(ptr + t3.toInt, self.val2)] ++ [(ptr + t4.toInt,
      self.val3)] ++ [(ptr + t5.toInt, self.val4)] ++ [(ptr + t6.toInt, self.val5)] ++ [(ptr + t7.toInt, self.val6)] ++ [(ptr +
      t8.toInt, self.val7)] ++ [(ptr + t9.toInt, self.val8)] ++ [(ptr + t10.toInt, self.val9)] ++ [(ptr + t11.toInt,
      self.val10)] ++ [(ptr + t12.toInt, self.val11)] ++ [(ptr + t13.toInt, self.val12)] ++ [(ptr + t14.toInt, self.val13)] ++
      [(ptr + t15.toInt, self.val14)] ++ [(ptr + t16.toInt, self.val15)])

/-- `operator<<`, free function (detail/short_vec_scalar_int_16.hpp:439-443) -/
def opStore (E : FEnv) (data : Int) (vec : V) : Option (Writes 32) := do
  let w1 ← store E vec data
  some w1

/-- `sqrt`, free function (detail/short_vec_scalar_int_16.hpp:449-453) -/
def sqrtFn (E : FEnv) (vec : V) : V := sqrt E vec

/-- `operator<<`, free function (detail/short_vec_scalar_int_16.hpp:461-472) -/
def print (E : FEnv) (vec : V) : List (Out 32) :=
  [.s "[", .v vec.val0, .s ", ", .v vec.val1, .s ", ", .v vec.val2, .s ", ", .v vec.val3, .s ", ", .v vec.val4, .s ", ", .v
      vec.val5, .s ", ", .v vec.val6, .s ", ", .v vec.val7, .s ", ", .v vec.val8, .s ", ", .v vec.val9, .s ", ", .v vec.val10,
      .s ", ", .v vec.val11, .s ", ", .v vec.val12, .s ", ", .v vec.val13, .s ", ", .v vec.val14, .s ", ", .v vec.val15, .s "]"]

end LFA.SV.ScalarInt16

namespace LFA.SV.ScalarInt32

/-- members of `short_vec<int, 32>` (detail/short_vec_scalar_int_32.hpp:56) -/
structure V where
  val0 : BitVec 32
  val1 : BitVec 32
  val2 : BitVec 32
  val3 : BitVec 32
  val4 : BitVec 32
  val5 : BitVec 32
  val6 : BitVec 32
  val7 : BitVec 32
  val8 : BitVec 32
  val9 : BitVec 32
  val10 : BitVec 32
  val11 : BitVec 32
  val12 : BitVec 32
  val13 : BitVec 32
  val14 : BitVec 32
  val15 : BitVec 32
  val16 : BitVec 32
  val17 : BitVec 32
  val18 : BitVec 32
  val19 : BitVec 32
  val20 : BitVec 32
  val21 : BitVec 32
  val22 : BitVec 32
  val23 : BitVec 32
  val24 : BitVec 32
  val25 : BitVec 32
  val26 : BitVec 32
  val27 : BitVec 32
  val28 : BitVec 32
  val29 : BitVec 32
  val30 : BitVec 32
  val31 : BitVec 32

/-- lanes, from low to high -/
def V.lanes (v : V) : List (BitVec 32) := [v.val0, v.val1, v.val2, v.val3, v.val4, v.val5, v.val6, v.val7, v.val8, v.val9,
    v.val10, v.val11, v.val12, v.val13, v.val14, v.val15, v.val16, v.val17, v.val18, v.val19, v.val20, v.val21, v.val22,
    v.val23, v.val24, v.val25, v.val26, v.val27, v.val28, v.val29, v.val30, v.val31]

/-- constructor (detail/short_vec_scalar_int_32.hpp:68-102) -/
def bcast (E : FEnv) (data : BitVec 32) : V :=
  ⟨data, data, data, data, data, data, data, data, data, data, data, data, data, data, data, data, data, data, data, data,
      data, data, data, data, data, data, data, data, data, data, data, data⟩

/-- constructor (detail/short_vec_scalar_int_32.hpp:110-176) -/
def ofRegs (E : FEnv) (val1 : BitVec 32) (val2 : BitVec 32) (val3 : BitVec 32) (val4 : BitVec 32) (val5 : BitVec 32) (val6 :
    BitVec 32) (val7 : BitVec 32) (val8 : BitVec 32) (val9 : BitVec 32) (val10 : BitVec 32) (val11 : BitVec 32) (val12 : BitVec
    32) (val13 : BitVec 32) (val14 : BitVec 32) (val15 : BitVec 32) (val16 : BitVec 32) (val17 : BitVec 32) (val18 : BitVec 32)
    (val19 : BitVec 32) (val20 : BitVec 32) (val21 : BitVec 32) (val22 : BitVec 32) (val23 : BitVec 32) (val24 : BitVec 32)
    (val25 : BitVec 32) (val26 : BitVec 32) (val27 : BitVec 32) (val28 : BitVec 32) (val29 : BitVec 32) (val30 : BitVec 32)
    (val31 : BitVec 32) (val32 : BitVec 32) : V :=
  ⟨val1, val2, val3, val4, val5, val6, val7, val8, val9, val10, val11, val12, val13, val14, val15, val16, val17, val18, val19,
      val20, val21, val22, val23, val24, val25, val26, val27, val28, val29, val30, val31, val32⟩

/-- `load` (detail/short_vec_scalar_int_32.hpp:533-568) -/
def load (E : FEnv) (m : Mem 32) (self : V) (data : Int) : Option V := do
  let t1 ← m (data + 0)
  let val0 : BitVec 32 := t1
  let t2 ← m (data + 1)
  let val1 : BitVec 32 := t2
  let t3 ← m (data + 2)
  let val2 : BitVec 32 := t3
  let t4 ← m (data + 3)
  let val3 : BitVec 32 := t4
  let t5 ← m (data + 4)
  let val4 : BitVec 32 := t5
  let t6 ← m (data + 5)
  let val5 : BitVec 32 := t6
  let t7 ← m (data + 6)
  let val6 : BitVec 32 := t7
  let t8 ← m (data + 7)
  let val7 : BitVec 32 := t8
  let t9 ← m (data + 8)
  let val8 : BitVec 32 := t9
  let t10 ← m (data + 9)
  let val9 : BitVec 32 := t10
  let t11 ← m (data + 10)
  let val10 : BitVec 32 := t11
  let t12 ← m (data + 11)
  let val11 : BitVec 32 := t12
  let t13 ← m (data + 12)
  let val12 : BitVec 32 := t13
  let t14 ← m (data + 13)
  let val13 : BitVec 32 := t14
  let t15 ← m (data + 14)
  let val14 : BitVec 32 := t15
  let t16 ← m (data + 15)
  let val15 : BitVec 32 := t16
  let t17 ← m (data + 16)
  let val16 : BitVec 32 := t17
  let t18 ← m (data + 17)
  let val17 : BitVec 32 := t18
  let t19 ← m (data + 18)
  let val18 : BitVec 32 := t19
  let t20 ← m (data + 19)
  let val19 : BitVec 32 := t20
  let t21 ← m (data + 20)
  let val20 : BitVec 32 := t21
  let t22 ← m (data + 21)
  let val21 : BitVec 32 := t22
  let t23 ← m (data + 22)
  let val22 : BitVec 32 := t23
  let t24 ← m (data + 23)
  let val23 : BitVec 32 := t24
  let t25 ← m (data + 24)
  let val24 : BitVec 32 := t25
  let t26 ← m (data + 25)
  let val25 : BitVec 32 := t26
  let t27 ← m (data + 26)
  let val26 : BitVec 32 := t27
  let t28 ← m (data + 27)
  let val27 : BitVec 32 := t28
  let t29 ← m (data + 28)
  let val28 : BitVec 32 := t29
  let t30 ← m (data + 29)
  let val29 : BitVec 32 := t30
  let t31 ← m (data + 30)
  let val30 : BitVec 32 := t31
  let t32 ← m (data + 31)
  let val31 : BitVec 32 := t32
  some ⟨val0, val1, val2, val3, val4, val5, val6, val7, val8, val9, val10, val11, val12, val13, val14, val15, val16, val17,
      val18, val19, val20, val21, val22, val23, val24, val25, val26, val27, val28, val29, val30, val31⟩

/-- `store` (detail/short_vec_scalar_int_32.hpp:576-611) -/
def store (E : FEnv) (self : V) (data : Int) : Option (Writes 32) :=
  some ([(data + 0, self.val0)] ++ [(data + 1, self.val1)] ++ [(data + 2, self.val2)] ++ [(data + 3, self.val3)] ++ [(data + 4,
      self.val4)] ++ [(data + 5, self.val5)] ++ [(data + 6, self.val6)] ++ [(data + 7, self.val7)] ++ [(data + 8, self.val8)]
      ++ [(data + 9, self.val9)] ++ [(data + 10, self.val10)] ++ [(data + 11, self.val11)] ++ [(data + 12, self.val12)] ++
      [(data + 13, self.val13)] ++ [(data + 14, self.val14)] ++ [(data + 15, self.val15)] ++ [(data + 16, self.val16)] ++
      [(data + 17, self.val17)] ++ [(data + 18, self.val18)] ++ [(data + 19, self.val19)] ++ [(data + 20, self.val20)] ++
      [(data + 21, self.val21)] ++ [(data + 22, self.val22)] ++ [(data + 23, self.val23)] ++ [(data + 24, self.val24)] ++
      [(data + 25, self.val25)] ++ [(data + 26, self.val26)] ++ [(data + 27, self.val27)] ++ [(data + 28, self.val28)] ++
      [(data + 29, self.val29)] ++ [(data + 30, self.val30)] ++ [(data + 31, self.val31)])

/-- `sqrt` (detail/short_vec_scalar_int_32.hpp:492-528) -/
def sqrt (E : FEnv) (self : V) : V :=
  ofRegs E (E.f64.toIntT (E.f64.sqrt (E.f64.ofInt self.val0))) (E.f64.toIntT (E.f64.sqrt (E.f64.ofInt self.val1)))
      (E.f64.toIntT (E.f64.sqrt (E.f64.ofInt self.val2))) (E.f64.toIntT (E.f64.sqrt (E.f64.ofInt self.val3))) (E.f64.toIntT
      (E.f64.sqrt (E.f64.ofInt self.val4))) (E.f64.toIntT (E.f64.sqrt (E.f64.ofInt self.val5))) (E.f64.toIntT (E.f64.sqrt
      (E.f64.ofInt self.val6))) (E.f64.toIntT (E.f64.sqrt (E.f64.ofInt self.val7))) (E.f64.toIntT (E.f64.sqrt (E.f64.ofInt
      self.val8))) (E.f64.toIntT (E.f64.sqrt (E.f64.ofInt self.val9))) (E.f64.toIntT (E.f64.sqrt (E.f64.ofInt self.val10)))
      (E.f64.toIntT (E.f64.sqrt (E.f64.ofInt self.val11))) (E.f64.toIntT (E.f64.sqrt (E.f64.ofInt self.val12))) (E.f64.toIntT
      (E.f64.sqrt (E.f64.ofInt self.val13))) (E.f64.toIntT (E.f64.sqrt (E.f64.ofInt self.val14))) (E.f64.toIntT (E.f64.sqrt
      (E.f64.ofInt self.val15))) (E.f64.toIntT (E.f64.sqrt (E.f64.ofInt self.val16))) (E.f64.toIntT (E.f64.sqrt (E.f64.ofInt
      self.val17))) (E.f64.toIntT (E.f64.sqrt (E.f64.ofInt self.val18))) (E.f64.toIntT (E.f64.sqrt (E.f64.ofInt self.val19)))
      (E.f64.toIntT (E.f64.sqrt (E.f64.ofInt self.val20))) (E.f64.toIntT (E.f64.sqrt (E.f64.ofInt self.val21))) (E.f64.toIntT
      (E.f64.sqrt (E.f64.ofInt self.val22))) (E.f64.toIntT (E.f64.sqrt (E.f64.ofInt self.val23))) (E.f64.toIntT (E.f64.sqrt
      (E.f64.ofInt self.val24))) (E.f64.toIntT (E.f64.sqrt (E.f64.ofInt self.val25))) (E.f64.toIntT (E.f64.sqrt (E.f64.ofInt
      self.val26))) (E.f64.toIntT (E.f64.sqrt (E.f64.ofInt self.val27))) (E.f64.toIntT (E.f64.sqrt (E.f64.ofInt self.val28)))
      (E.f64.toIntT (E.f64.sqrt (E.f64.ofInt self.val29))) (E.f64.toIntT (E.f64.sqrt (E.f64.ofInt self.val30))) (E.f64.toIntT
      (E.f64.sqrt (E.f64.ofInt self.val31)))

/-- constructor (detail/short_vec_scalar_int_32.hpp:104-108) -/
def ofPtr (E : FEnv) (m : Mem 32) (data : Int) : Option V := do
  let v1 ← load E m ⟨(uninit : BitVec 32), (uninit : BitVec 32), (uninit : BitVec 32), (uninit : BitVec 32), (uninit : BitVec
      32), (uninit : BitVec 32), (uninit : BitVec 32), (uninit : BitVec 32), (uninit : BitVec 32), (uninit : BitVec 32),
      (uninit : BitVec 32), (uninit : BitVec 32), (uninit : BitVec 32), (uninit : BitVec 32), (uninit : BitVec 32), (uninit :
      BitVec 32), (uninit : BitVec 32), (uninit : BitVec 32), (uninit : BitVec 32), (uninit : BitVec 32), (uninit : BitVec 32),
      (uninit : BitVec 32), (uninit : BitVec 32), (uninit : BitVec 32), (uninit : BitVec 32), (uninit : BitVec 32), (uninit :
      BitVec 32), (uninit : BitVec 32), (uninit : BitVec 32), (uninit : BitVec 32), (uninit : BitVec 32), (uninit : BitVec 32)⟩
      data
  some ⟨v1.val0, v1.val1, v1.val2, v1.val3, v1.val4, v1.val5, v1.val6, v1.val7, v1.val8, v1.val9, v1.val10, v1.val11, v1.val12,
      v1.val13, v1.val14, v1.val15, v1.val16, v1.val17, v1.val18, v1.val19, v1.val20, v1.val21, v1.val22, v1.val23, v1.val24,
      v1.val25, v1.val26, v1.val27, v1.val28, v1.val29, v1.val30, v1.val31⟩

/-- constructor (detail/short_vec_scalar_int_32.hpp:179-184) -/
def ofList (E : FEnv) (m : Mem 32) (il : Int) : Option V := do
  let v1 ← load E m ⟨(uninit : BitVec 32), (uninit : BitVec 32), (uninit : BitVec 32), (uninit : BitVec 32), (uninit : BitVec
      32), (uninit : BitVec 32), (uninit : BitVec 32), (uninit : BitVec 32), (uninit : BitVec 32), (uninit : BitVec 32),
      (uninit : BitVec 32), (uninit : BitVec 32), (uninit : BitVec 32), (uninit : BitVec 32), (uninit : BitVec 32), (uninit :
      BitVec 32), (uninit : BitVec 32), (uninit : BitVec 32), (uninit : BitVec 32), (uninit : BitVec 32), (uninit : BitVec 32),
      (uninit : BitVec 32), (uninit : BitVec 32), (uninit : BitVec 32), (uninit : BitVec 32), (uninit : BitVec 32), (uninit :
      BitVec 32), (uninit : BitVec 32), (uninit : BitVec 32), (uninit : BitVec 32), (uninit : BitVec 32), (uninit : BitVec 32)⟩
      il
  some ⟨v1.val0, v1.val1, v1.val2, v1.val3, v1.val4, v1.val5, v1.val6, v1.val7, v1.val8, v1.val9, v1.val10, v1.val11, v1.val12,
      v1.val13, v1.val14, v1.val15, v1.val16, v1.val17, v1.val18, v1.val19, v1.val20, v1.val21, v1.val22, v1.val23, v1.val24,
      v1.val25, v1.val26, v1.val27, v1.val28, v1.val29, v1.val30, v1.val31⟩

/-- `operator-=` (detail/short_vec_scalar_int_32.hpp:187-222) -/
def opSubAssign (E : FEnv) (self : V) (other : V) : Option V := do
  let t1 ← isub self.val0 other.val0
  let val0 : BitVec 32 := t1
  let t2 ← isub self.val1 other.val1
  let val1 : BitVec 32 := t2
  let t3 ← isub self.val2 other.val2
  let val2 : BitVec 32 := t3
  let t4 ← isub self.val3 other.val3
  let val3 : BitVec 32 := t4
  let t5 ← isub self.val4 other.val4
  let val4 : BitVec 32 := t5
  let t6 ← isub self.val5 other.val5
  let val5 : BitVec 32 := t6
  let t7 ← isub self.val6 other.val6
  let val6 : BitVec 32 := t7
  let t8 ← isub self.val7 other.val7
  let val7 : BitVec 32 := t8
  let t9 ← isub self.val8 other.val8
  let val8 : BitVec 32 := t9
  let t10 ← isub self.val9 other.val9
  let val9 : BitVec 32 := t10
  let t11 ← isub self.val10 other.val10
  let val10 : BitVec 32 := t11
  let t12 ← isub self.val11 other.val11
  let val11 : BitVec 32 := t12
  let t13 ← isub self.val12 other.val12
  let val12 : BitVec 32 := t13
  let t14 ← isub self.val13 other.val13
  let val13 : BitVec 32 := t14
  let t15 ← isub self.val14 other.val14
  let val14 : BitVec 32 := t15
  let t16 ← isub self.val15 other.val15
  let val15 : BitVec 32 := t16
  let t17 ← isub self.val16 other.val16
  let val16 : BitVec 32 := t17
  let t18 ← isub self.val17 other.val17
  let val17 : BitVec 32 := t18
  let t19 ← isub self.val18 other.val18
  let val18 : BitVec 32 := t19
  let t20 ← isub self.val19 other.val19
  let val19 : BitVec 32 := t20
  let t21 ← isub self.val20 other.val20
  let val20 : BitVec 32 := t21
  let t22 ← isub self.val21 other.val21
  let val21 : BitVec 32 := t22
  let t23 ← isub self.val22 other.val22
  let val22 : BitVec 32 := t23
  let t24 ← isub self.val23 other.val23
  let val23 : BitVec 32 := t24
  let t25 ← isub self.val24 other.val24
  let val24 : BitVec 32 := t25
  let t26 ← isub self.val25 other.val25
  let val25 : BitVec 32 := t26
  let t27 ← isub self.val26 other.val26
  let val26 : BitVec 32 := t27
  let t28 ← isub self.val27 other.val27
  let val27 : BitVec 32 := t28
  let t29 ← isub self.val28 other.val28
  let val28 : BitVec 32 := t29
  let t30 ← isub self.val29 other.val29
  let val29 : BitVec 32 := t30
  let t31 ← isub self.val30 other.val30
  let val30 : BitVec 32 := t31
  let t32 ← isub self.val31 other.val31
  let val31 : BitVec 32 := t32
  some ⟨val0, val1, val2, val3, val4, val5, val6, val7, val8, val9, val10, val11, val12, val13, val14, val15, val16, val17,
      val18, val19, val20, val21, val22, val23, val24, val25, val26, val27, val28, val29, val30, val31⟩

/-- `operator-` (detail/short_vec_scalar_int_32.hpp:224-260) -/
def opSub (E : FEnv) (self : V) (other : V) : Option V := do
  let t1 ← isub self.val0 other.val0
  let t2 ← isub self.val1 other.val1
  let t3 ← isub self.val2 other.val2
  let t4 ← isub self.val3 other.val3
  let t5 ← isub self.val4 other.val4
  let t6 ← isub self.val5 other.val5
  let t7 ← isub self.val6 other.val6
  let t8 ← isub self.val7 other.val7
  let t9 ← isub self.val8 other.val8
  let t10 ← isub self.val9 other.val9
  let t11 ← isub self.val10 other.val10
  let t12 ← isub self.val11 other.val11
  let t13 ← isub self.val12 other.val12
  let t14 ← isub self.val13 other.val13
  let t15 ← isub self.val14 other.val14
  let t16 ← isub self.val15 other.val15
  let t17 ← isub self.val16 other.val16
  let t18 ← isub self.val17 other.val17
  let t19 ← isub self.val18 other.val18
  let t20 ← isub self.val19 other.val19
  let t21 ← isub self.val20 other.val20
  let t22 ← isub self.val21 other.val21
  let t23 ← isub self.val22 other.val22
  let t24 ← isub self.val23 other.val23
  let t25 ← isub self.val24 other.val24
  let t26 ← isub self.val25 other.val25
  let t27 ← isub self.val26 other.val26
  let t28 ← isub self.val27 other.val27
  let t29 ← isub self.val28 other.val28
  let t30 ← isub self.val29 other.val29
  let t31 ← isub self.val30 other.val30
  let t32 ← isub self.val31 other.val31
  some (ofRegs E t1 t2 t3 t4 t5 t6 t7 t8 t9 t10 t11 t12 t13 t14 t15 t16 t17 t18 t19 t20 t21 t22 t23 t24 t25 t26 t27 t28 t29 t30
      t31 t32)

/-- `operator+=` (detail/short_vec_scalar_int_32.hpp:262-297) -/
def opAddAssign (E : FEnv) (self : V) (other : V) : Option V := do
  let t1 ← iadd self.val0 other.val0
  let val0 : BitVec 32 := t1
  let t2 ← iadd self.val1 other.val1
  let val1 : BitVec 32 := t2
  let t3 ← iadd self.val2 other.val2
  let val2 : BitVec 32 := t3
  let t4 ← iadd self.val3 other.val3
  let val3 : BitVec 32 := t4
  let t5 ← iadd self.val4 other.val4
  let val4 : BitVec 32 := t5
  let t6 ← iadd self.val5 other.val5
  let val5 : BitVec 32 := t6
  let t7 ← iadd self.val6 other.val6
  let val6 : BitVec 32 := t7
  let t8 ← iadd self.val7 other.val7
  let val7 : BitVec 32 := t8
  let t9 ← iadd self.val8 other.val8
  let val8 : BitVec 32 := t9
  let t10 ← iadd self.val9 other.val9
  let val9 : BitVec 32 := t10
  let t11 ← iadd self.val10 other.val10
  let val10 : BitVec 32 := t11
  let t12 ← iadd self.val11 other.val11
  let val11 : BitVec 32 := t12
  let t13 ← iadd self.val12 other.val12
  let val12 : BitVec 32 := t13
  let t14 ← iadd self.val13 other.val13
  let val13 : BitVec 32 := t14
  let t15 ← iadd self.val14 other.val14
  let val14 : BitVec 32 := t15
  let t16 ← iadd self.val15 other.val15
  let val15 : BitVec 32 := t16
  let t17 ← iadd self.val16 other.val16
  let val16 : BitVec 32 := t17
  let t18 ← iadd self.val17 other.val17
  let val17 : BitVec 32 := t18
  let t19 ← iadd self.val18 other.val18
  let val18 : BitVec 32 := t19
  let t20 ← iadd self.val19 other.val19
  let val19 : BitVec 32 := t20
  let t21 ← iadd self.val20 other.val20
  let val20 : BitVec 32 := t21
  let t22 ← iadd self.val21 other.val21
  let val21 : BitVec 32 := t22
  let t23 ← iadd self.val22 other.val22
  let val22 : BitVec 32 := t23
  let t24 ← iadd self.val23 other.val23
  let val23 : BitVec 32 := t24
  let t25 ← iadd self.val24 other.val24
  let val24 : BitVec 32 := t25
  let t26 ← iadd self.val25 other.val25
  let val25 : BitVec 32 := t26
  let t27 ← iadd self.val26 other.val26
  let val26 : BitVec 32 := t27
  let t28 ← iadd self.val27 other.val27
  let val27 : BitVec 32 := t28
  let t29 ← iadd self.val28 other.val28
  let val28 : BitVec 32 := t29
  let t30 ← iadd self.val29 other.val29
  let val29 : BitVec 32 := t30
  let t31 ← iadd self.val30 other.val30
  let val30 : BitVec 32 := t31
  let t32 ← iadd self.val31 other.val31
  let val31 : BitVec 32 := t32
  some ⟨val0, val1, val2, val3, val4, val5, val6, val7, val8, val9, val10, val11, val12, val13, val14, val15, val16, val17,
      val18, val19, val20, val21, val22, val23, val24, val25, val26, val27, val28, val29, val30, val31⟩

/-- `operator+` (detail/short_vec_scalar_int_32.hpp:299-335) -/
def opAdd (E : FEnv) (self : V) (other : V) : Option V := do
  let t1 ← iadd self.val0 other.val0
  let t2 ← iadd self.val1 other.val1
  let t3 ← iadd self.val2 other.val2
  let t4 ← iadd self.val3 other.val3
  let t5 ← iadd self.val4 other.val4
  let t6 ← iadd self.val5 other.val5
  let t7 ← iadd self.val6 other.val6
  let t8 ← iadd self.val7 other.val7
  let t9 ← iadd self.val8 other.val8
  let t10 ← iadd self.val9 other.val9
  let t11 ← iadd self.val10 other.val10
  let t12 ← iadd self.val11 other.val11
  let t13 ← iadd self.val12 other.val12
  let t14 ← iadd self.val13 other.val13
  let t15 ← iadd self.val14 other.val14
  let t16 ← iadd self.val15 other.val15
  let t17 ← iadd self.val16 other.val16
  let t18 ← iadd self.val17 other.val17
  let t19 ← iadd self.val18 other.val18
  let t20 ← iadd self.val19 other.val19
  let t21 ← iadd self.val20 other.val20
  let t22 ← iadd self.val21 other.val21
  let t23 ← iadd self.val22 other.val22
  let t24 ← iadd self.val23 other.val23
  let t25 ← iadd self.val24 other.val24
  let t26 ← iadd self.val25 other.val25
  let t27 ← iadd self.val26 other.val26
  let t28 ← iadd self.val27 other.val27
  let t29 ← iadd self.val28 other.val28
  let t30 ← iadd self.val29 other.val29
  let t31 ← iadd self.val30 other.val30
  let t32 ← iadd self.val31 other.val31
  some (ofRegs E t1 t2 t3 t4 t5 t6 t7 t8 t9 t10 t11 t12 t13 t14 t15 t16 t17 t18 t19 t20 t21 t22 t23 t24 t25 t26 t27 t28 t29 t30
      t31 t32)

/-- `operator*=` (detail/short_vec_scalar_int_32.hpp:337-372) -/
def opMulAssign (E : FEnv) (self : V) (other : V) : Option V := do
  let t1 ← imul self.val0 other.val0
  let val0 : BitVec 32 := t1
  let t2 ← imul self.val1 other.val1
  let val1 : BitVec 32 := t2
  let t3 ← imul self.val2 other.val2
  let val2 : BitVec 32 := t3
  let t4 ← imul self.val3 other.val3
  let val3 : BitVec 32 := t4
  let t5 ← imul self.val4 other.val4
  let val4 : BitVec 32 := t5
  let t6 ← imul self.val5 other.val5
  let val5 : BitVec 32 := t6
  let t7 ← imul self.val6 other.val6
  let val6 : BitVec 32 := t7
  let t8 ← imul self.val7 other.val7
  let val7 : BitVec 32 := t8
  let t9 ← imul self.val8 other.val8
  let val8 : BitVec 32 := t9
  let t10 ← imul self.val9 other.val9
  let val9 : BitVec 32 := t10
  let t11 ← imul self.val10 other.val10
  let val10 : BitVec 32 := t11
  let t12 ← imul self.val11 other.val11
  let val11 : BitVec 32 := t12
  let t13 ← imul self.val12 other.val12
  let val12 : BitVec 32 := t13
  let t14 ← imul self.val13 other.val13
  let val13 : BitVec 32 := t14
  let t15 ← imul self.val14 other.val14
  let val14 : BitVec 32 := t15
  let t16 ← imul self.val15 other.val15
  let val15 : BitVec 32 := t16
  let t17 ← imul self.val16 other.val16
  let val16 : BitVec 32 := t17
  let t18 ← imul self.val17 other.val17
  let val17 : BitVec 32 := t18
  let t19 ← imul self.val18 other.val18
  let val18 : BitVec 32 := t19
  let t20 ← imul self.val19 other.val19
  let val19 : BitVec 32 := t20
  let t21 ← imul self.val20 other.val20
  let val20 : BitVec 32 := t21
  let t22 ← imul self.val21 other.val21
  let val21 : BitVec 32 := t22
  let t23 ← imul self.val22 other.val22
  let val22 : BitVec 32 := t23
  let t24 ← imul self.val23 other.val23
  let val23 : BitVec 32 := t24
  let t25 ← imul self.val24 other.val24
  let val24 : BitVec 32 := t25
  let t26 ← imul self.val25 other.val25
  let val25 : BitVec 32 := t26
  let t27 ← imul self.val26 other.val26
  let val26 : BitVec 32 := t27
  let t28 ← imul self.val27 other.val27
  let val27 : BitVec 32 := t28
  let t29 ← imul self.val28 other.val28
  let val28 : BitVec 32 := t29
  let t30 ← imul self.val29 other.val29
  let val29 : BitVec 32 := t30
  let t31 ← imul self.val30 other.val30
  let val30 : BitVec 32 := t31
  let t32 ← imul self.val31 other.val31
  let val31 : BitVec 32 := t32
  some ⟨val0, val1, val2, val3, val4, val5, val6, val7, val8, val9, val10, val11, val12, val13, val14, val15, val16, val17,
      val18, val19, val20, val21, val22, val23, val24, val25, val26, val27, val28, val29, val30, val31⟩

/-- `operator*` (detail/short_vec_scalar_int_32.hpp:374-410) -/
def opMul (E : FEnv) (self : V) (other : V) : Option V := do
  let t1 ← imul self.val0 other.val0
  let t2 ← imul self.val1 other.val1
  let t3 ← imul self.val2 other.val2
  let t4 ← imul self.val3 other.val3
  let t5 ← imul self.val4 other.val4
  let t6 ← imul self.val5 other.val5
  let t7 ← imul self.val6 other.val6
  let t8 ← imul self.val7 other.val7
  let t9 ← imul self.val8 other.val8
  let t10 ← imul self.val9 other.val9
  let t11 ← imul self.val10 other.val10
  let t12 ← imul self.val11 other.val11
  let t13 ← imul self.val12 other.val12
  let t14 ← imul self.val13 other.val13
  let t15 ← imul self.val14 other.val14
  let t16 ← imul self.val15 other.val15
  let t17 ← imul self.val16 other.val16
  let t18 ← imul self.val17 other.val17
  let t19 ← imul self.val18 other.val18
  let t20 ← imul self.val19 other.val19
  let t21 ← imul self.val20 other.val20
  let t22 ← imul self.val21 other.val21
  let t23 ← imul self.val22 other.val22
  let t24 ← imul self.val23 other.val23
  let t25 ← imul self.val24 other.val24
  let t26 ← imul self.val25 other.val25
  let t27 ← imul self.val26 other.val26
  let t28 ← imul self.val27 other.val27
  let t29 ← imul self.val28 other.val28
  let t30 ← imul self.val29 other.val29
  let t31 ← imul self.val30 other.val30
  let t32 ← imul self.val31 other.val31
  some (ofRegs E t1 t2 t3 t4 t5 t6 t7 t8 t9 t10 t11 t12 t13 t14 t15 t16 t17 t18 t19 t20 t21 t22 t23 t24 t25 t26 t27 t28 t29 t30
      t31 t32)

/-- `operator/=` (detail/short_vec_scalar_int_32.hpp:412-447) -/
def opDivAssign (E : FEnv) (self : V) (other : V) : Option V := do
  let t1 ← idiv self.val0 other.val0
  let val0 : BitVec 32 := t1
  let t2 ← idiv self.val1 other.val1
  let val1 : BitVec 32 := t2
  let t3 ← idiv self.val2 other.val2
  let val2 : BitVec 32 := t3
  let t4 ← idiv self.val3 other.val3
  let val3 : BitVec 32 := t4
  let t5 ← idiv self.val4 other.val4
  let val4 : BitVec 32 := t5
  let t6 ← idiv self.val5 other.val5
  let val5 : BitVec 32 := t6
  let t7 ← idiv self.val6 other.val6
  let val6 : BitVec 32 := t7
  let t8 ← idiv self.val7 other.val7
  let val7 : BitVec 32 := t8
  let t9 ← idiv self.val8 other.val8
  let val8 : BitVec 32 := t9
  let t10 ← idiv self.val9 other.val9
  let val9 : BitVec 32 := t10
  let t11 ← idiv self.val10 other.val10
  let val10 : BitVec 32 := t11
  let t12 ← idiv self.val11 other.val11
  let val11 : BitVec 32 := t12
  let t13 ← idiv self.val12 other.val12
  let val12 : BitVec 32 := t13
  let t14 ← idiv self.val13 other.val13
  let val13 : BitVec 32 := t14
  let t15 ← idiv self.val14 other.val14
  let val14 : BitVec 32 := t15
  let t16 ← idiv self.val15 other.val15
  let val15 : BitVec 32 := t16
  let t17 ← idiv self.val16 other.val16
  let val16 : BitVec 32 := t17
  let t18 ← idiv self.val17 other.val17
  let val17 : BitVec 32 := t18
  let t19 ← idiv self.val18 other.val18
  let val18 : BitVec 32 := t19
  let t20 ← idiv self.val19 other.val19
  let val19 : BitVec 32 := t20
  let t21 ← idiv self.val20 other.val20
  let val20 : BitVec 32 := t21
  let t22 ← idiv self.val21 other.val21
  let val21 : BitVec 32 := t22
  let t23 ← idiv self.val22 other.val22
  let val22 : BitVec 32 := t23
  let t24 ← idiv self.val23 other.val23
  let val23 : BitVec 32 := t24
  let t25 ← idiv self.val24 other.val24
  let val24 : BitVec 32 := t25
  let t26 ← idiv self.val25 other.val25
  let val25 : BitVec 32 := t26
  let t27 ← idiv self.val26 other.val26
  let val26 : BitVec 32 := t27
  let t28 ← idiv self.val27 other.val27
  let val27 : BitVec 32 := t28
  let t29 ← idiv self.val28 other.val28
  let val28 : BitVec 32 := t29
  let t30 ← idiv self.val29 other.val29
  let val29 : BitVec 32 := t30
  let t31 ← idiv self.val30 other.val30
  let val30 : BitVec 32 := t31
  let t32 ← idiv self.val31 other.val31
  let val31 : BitVec 32 := t32
  some ⟨val0, val1, val2, val3, val4, val5, val6, val7, val8, val9, val10, val11, val12, val13, val14, val15, val16, val17,
      val18, val19, val20, val21, val22, val23, val24, val25, val26, val27, val28, val29, val30, val31⟩

/-- `operator/` (detail/short_vec_scalar_int_32.hpp:449-485) -/
def opDiv (E : FEnv) (self : V) (other : V) : Option V := do
  let t1 ← idiv self.val0 other.val0
  let t2 ← idiv self.val1 other.val1
  let t3 ← idiv self.val2 other.val2
  let t4 ← idiv self.val3 other.val3
  let t5 ← idiv self.val4 other.val4
  let t6 ← idiv self.val5 other.val5
  let t7 ← idiv self.val6 other.val6
  let t8 ← idiv self.val7 other.val7
  let t9 ← idiv self.val8 other.val8
  let t10 ← idiv self.val9 other.val9
  let t11 ← idiv self.val10 other.val10
  let t12 ← idiv self.val11 other.val11
  let t13 ← idiv self.val12 other.val12
  let t14 ← idiv self.val13 other.val13
  let t15 ← idiv self.val14 other.val14
  let t16 ← idiv self.val15 other.val15
  let t17 ← idiv self.val16 other.val16
  let t18 ← idiv self.val17 other.val17
  let t19 ← idiv self.val18 other.val18
  let t20 ← idiv self.val19 other.val19
  let t21 ← idiv self.val20 other.val20
  let t22 ← idiv self.val21 other.val21
  let t23 ← idiv self.val22 other.val22
  let t24 ← idiv self.val23 other.val23
  let t25 ← idiv self.val24 other.val24
  let t26 ← idiv self.val25 other.val25
  let t27 ← idiv self.val26 other.val26
  let t28 ← idiv self.val27 other.val27
  let t29 ← idiv self.val28 other.val28
  let t30 ← idiv self.val29 other.val29
  let t31 ← idiv self.val30 other.val30
  let t32 ← idiv self.val31 other.val31
  some (ofRegs E t1 t2 t3 t4 t5 t6 t7 t8 t9 t10 t11 t12 t13 t14 t15 t16 t17 t18 t19 t20 t21 t22 t23 t24 t25 t26 t27 t28 t29 t30
      t31 t32)

/-- `load_aligned` (detail/short_vec_scalar_int_32.hpp:570-574) -/
def load_aligned (E : FEnv) (m : Mem 32) (self : V) (data : Int) : Option V := do
  let v1 ← load E m self data
  some ⟨v1.val0, v1.val1, v1.val2, v1.val3, v1.val4, v1.val5, v1.val6, v1.val7, v1.val8, v1.val9, v1.val10, v1.val11, v1.val12,
      v1.val13, v1.val14, v1.val15, v1.val16, v1.val17, v1.val18, v1.val19, v1.val20, v1.val21, v1.val22, v1.val23, v1.val24,
      v1.val25, v1.val26, v1.val27, v1.val28, v1.val29, v1.val30, v1.val31⟩

/-- `store_aligned` (detail/short_vec_scalar_int_32.hpp:613-617) -/
def store_aligned (E : FEnv) (self : V) (data : Int) : Option (Writes 32) := do
  let w1 ← store E self data
  some w1

/-- `store_nt` (detail/short_vec_scalar_int_32.hpp:619-623) -/
def store_nt (E : FEnv) (self : V) (data : Int) : Option (Writes 32) := do
  let w1 ← store E self data
  some w1

/-- `gather` (detail/short_vec_scalar_int_32.hpp:625-660) -/
def gather (E : FEnv) (m : Mem 32) (mo : Mem 32) (self : V) (ptr : Int) (offsets : Int) : Option V := do
  let t1 ← mo (offsets + 0)
  let t2 ← m (ptr + t1.toInt)
  let val0 : BitVec 32 := t2
  let t3 ← mo (offsets + 1)
  let t4 ← m (ptr + t3.toInt)
  let val1 : BitVec 32 := t4
  let t5 ← mo (offsets + 2)
  let t6 ← m (ptr + t5.toInt)
  let val2 : BitVec 32 := t6
  let t7 ← mo (offsets + 3)
  let t8 ← m (ptr + t7.toInt)
  let val3 : BitVec 32 := t8
  let t9 ← mo (offsets + 4)
  let t10 ← m (ptr + t9.toInt)
  let val4 : BitVec 32 := t10
  let t11 ← mo (offsets + 5)
  let t12 ← m (ptr + t11.toInt)
  let val5 : BitVec 32 := t12
  let t13 ← mo (offsets + 6)
  let t14 ← m (ptr + t13.toInt)
  let val6 : BitVec 32 := t14
  let t15 ← mo (offsets + 7)
  let t16 ← m (ptr + t15.toInt)
  let val7 : BitVec 32 := t16
  let t17 ← mo (offsets + 8)
  let t18 ← m (ptr + t17.toInt)
  let val8 : BitVec 32 := t18
  let t19 ← mo (offsets + 9)
  let t20 ← m (ptr + t19.toInt)
  let val9 : BitVec 32 := t20
  let t21 ← mo (offsets + 10)
  let t22 ← m (ptr + t21.toInt)
  let val10 : BitVec 32 := t22
  let t23 ← mo (offsets + 11)
  let t24 ← m (ptr + t23.toInt)
  let val11 : BitVec 32 := t24
  let t25 ← mo (offsets + 12)
  let t26 ← m (ptr + t25.toInt)
  let val12 : BitVec 32 := t26
  let t27 ← mo (offsets + 13)
  let t28 ← m (ptr + t27.toInt)
  let val13 : BitVec 32 := t28
  let t29 ← mo (offsets + 14)
  let t30 ← m (ptr + t29.toInt)
  let val14 : BitVec 32 := t30
  let t31 ← mo (offsets + 15)
  let t32 ← m (ptr + t31.toInt)
  let val15 : BitVec 32 := t32
  let t33 ← mo (offsets + 16)
  let t34 ← m (ptr + t33.toInt)
  let val16 : BitVec 32 := t34
  let t35 ← mo (offsets + 17)
  let t36 ← m (ptr + t35.toInt)
  let val17 : BitVec 32 := t36
  let t37 ← mo (offsets + 18)
  let t38 ← m (ptr + t37.toInt)
  let val18 : BitVec 32 := t38
  let t39 ← mo (offsets + 19)
  let t40 ← m (ptr + t39.toInt)
  let val19 : BitVec 32 := t40
  let t41 ← mo (offsets + 20)
  let t42 ← m (ptr + t41.toInt)
  let val20 : BitVec 32 := t42
  let t43 ← mo (offsets + 21)
  let t44 ← m (ptr + t43.toInt)
  let val21 : BitVec 32 := t44
  let t45 ← mo (offsets + 22)
  let t46 ← m (ptr + t45.toInt)
  let val22 : BitVec 32 := t46
  let t47 ← mo (offsets + 23)
  let t48 ← m (ptr + t47.toInt)
  let val23 : BitVec 32 := t48
  let t49 ← mo (offsets + 24)
  let t50 ← m (ptr + t49.toInt)
  let val24 : BitVec 32 := t50
  let t51 ← mo (offsets + 25)
  let t52 ← m (ptr + t51.toInt)
  let val25 : BitVec 32 := t52
  let t53 ← mo (offsets + 26)
  let t54 ← m (ptr + t53.toInt)
  let val26 : BitVec 32 := t54
  let t55 ← mo (offsets + 27)
  let t56 ← m (ptr + t55.toInt)
  let val27 : BitVec 32 := t56
  let t57 ← mo (offsets + 28)
  let t58 ← m (ptr + t57.toInt)
  let val28 : BitVec 32 := t58
  let t59 ← mo (offsets + 29)
  let t60 ← m (ptr + t59.toInt)
  let val29 : BitVec 32 := t60
  let t61 ← mo (offsets + 30)
  let t62 ← m (ptr + t61.toInt)
  let val30 : BitVec 32 := t62
  let t63 ← mo (offsets + 31)
  let t64 ← m (ptr + t63.toInt)
  let val31 : BitVec 32 := t64
  some ⟨val0, val1, val2, val3, val4, val5, val6, val7, val8, val9, val10, val11, val12, val13, val14, val15, val16, val17,
      val18, val19, val20, val21, val22, val23, val24, val25, val26, val27, val28, val29, val30, val31⟩

/-- `scatter` (detail/short_vec_scalar_int_32.hpp:662-697) -/
def scatter (E : FEnv) (mo : Mem 32) (self : V) (ptr : Int) (offsets : Int) : Option (Writes 32) := do
  let t1 ← mo (offsets + 0)
  let t2 ← mo (offsets + 1)
  let t3 ← mo (offsets + 2)
  let t4 ← mo (offsets + 3)
  let t5 ← mo (offsets + 4)
  let t6 ← mo (offsets + 5)
  let t7 ← mo (offsets + 6)
  let t8 ← mo (offsets + 7)
  let t9 ← mo (offsets + 8)
  let t10 ← mo (offsets + 9)
  let t11 ← mo (offsets + 10)
  let t12 ← mo (offsets + 11)
  let t13 ← mo (offsets + 12)
  let t14 ← mo (offsets + 13)
  let t15 ← mo (offsets + 14)
  let t16 ← mo (offsets + 15)
  let t17 ← mo (offsets + 16)
  let t18 ← mo (offsets + 17)
  let t19 ← mo (offsets + 18)
  let t20 ← mo (offsets + 19)
  let t21 ← mo (offsets + 20)
  let t22 ← mo (offsets + 21)
  let t23 ← mo (offsets + 22)
  let t24 ← mo (offsets + 23)
  let t25 ← mo (offsets + 24)
  let t26 ← mo (offsets + 25)
  let t27 ← mo (offsets + 26)
  let t28 ← mo (offsets + 27)
  let t29 ← mo (offsets + 28)
  let t30 ← mo (offsets + 29)
  let t31 ← mo (offsets + 30)
  let t32 ← mo (offsets + 31)
  some ([(ptr + t1.toInt, self.val0)] ++ [(ptr + t2.toInt, self.val1)] ++ [(ptr + t3.toInt, self.val2)] ++ [(ptr + t4.toInt,
      self.val3)] ++ [(ptr + t5.toInt, self.val4)] ++ [(ptr + t6.toInt, self.val5)] ++ [(ptr + t7.toInt, self.val6)] ++ [(ptr +
      t8.toInt, self.val7)] ++ [(ptr + t9.toInt, self.val8)] ++ [(ptr + t10.toInt, self.val9)] ++ [(ptr + t11.toInt,
      self.val10)] ++ [(ptr + t12.toInt, self.val11)] ++ [(ptr + t13.toInt, self.val12)] ++ [(ptr + t14.toInt, self.val13)] ++
      [(ptr + t15.toInt, self.val14)] ++ [(ptr + t16.toInt, self.val15)] ++ [(ptr + t17.toInt, self.val16)] ++ [(ptr +
      t18.toInt, self.val17)] ++ [(ptr + t19.toInt, self.val18)] ++ [(ptr + t20.toInt, self.val19)] ++ [(ptr + t21.toInt,
      self.val20)] ++ [(ptr + t22.toInt, self.val21)] ++ [(ptr + t23.toInt, self.val22)] ++ [(ptr + t24.toInt, self.val23)] ++
      [(ptr + t25.toInt, self.val24)] ++ [(ptr + t26.toInt, self.val25)] ++ [(ptr + t27.toInt, self.val26)] ++ [(ptr +
      t28.toInt, self.val27)] ++ [(ptr + t29.toInt, self.val28)] ++ [(ptr + t30.toInt, self.val29)] ++ [(ptr + t31.toInt,
      self.val30)] ++ [(ptr + t32.toInt, self.val31)])

/-- `operator<<`, free function (detail/short_vec_scalar_int_32.hpp:703-707) -/
def opStore (E : FEnv) (data : Int) (vec : V) : Option (Writes 32) := do
  let w1 ← store E vec data
  some w1

/-- `sqrt`, free function (detail/short_vec_scalar_int_32.hpp:713-717) -/
def sqrtFn (E : FEnv) (vec : V) : V := sqrt E vec

/-- `operator<<`, free function (detail/short_vec_scalar_int_32.hpp:725-740) -/
def print (E : FEnv) (vec : V) : List (Out 32) :=
  [.s "[", .v vec.val0, .s ", ", .v vec.val1, .s ", ", .v vec.val2, .s ", ", .v vec.val3, .s ", ", .v vec.val4, .s ", ", .v
      vec.val5, .s ", ", .v vec.val6, .s ", ", .v vec.val7, .s ", ", .v vec.val8, .s ", ", .v vec.val9, .s ", ", .v vec.val10,
      .s ", ", .v vec.val11, .s ", ", .v vec.val12, .s ", ", .v vec.val13, .s ", ", .v vec.val14, .s ", ", .v vec.val15, .s
      ", ", .v vec.val16, .s ", ", .v vec.val17, .s ", ", .v vec.val18, .s ", ", .v vec.val19, .s ", ", .v vec.val20, .s ", ",
      .v vec.val21, .s ", ", .v vec.val22, .s ", ", .v vec.val23, .s ", ", .v vec.val24, .s ", ", .v vec.val25, .s ", ", .v
      vec.val26, .s ", ", .v vec.val27, .s ", ", .v vec.val28, .s ", ", .v vec.val29, .s ", ", .v vec.val30, .s ", ", .v
      vec.val31, .s "]"]

end LFA.SV.ScalarInt32
