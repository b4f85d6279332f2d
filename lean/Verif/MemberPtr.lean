import Verif.Accessor

/-
  member_ptr_to_offset (member_ptr_to_offset.hpp, detail/offset.hpp, detail/macros.hpp:44-90).
-/
namespace LFA

/-- The C++ type of a struct member: an element type (by number) and the number of elements for arrays. -/
structure MemTy where
  elem : Nat
  arity : Option Nat
deriving DecidableEq, Repr

/-- A registered member with its name and C++ type. -/
structure RegMember (V : Type) where
  name : Nat
  ty : MemTy
  obj : Member V

/-- A pointer to member `&CELL::name`; its C++ type contains the type of the member. -/
structure MemPtr where
  name : Nat
  ty : MemTy
deriving DecidableEq, Repr

/-- Conversion of a `size_t` value to the return type `int` (modulo 2^32). -/
def toInt32 (n : Nat) : Int := if n % 2 ^ 32 < 2 ^ 31 then (n % 2 ^ 32 : Nat) else (n % 2 ^ 32 : Nat) - (2 : Int) ^ 32

/-- Members as used by the layout. -/
def layoutOf {V : Type} (ms : List (RegMember V)) : Layout V := ms.map RegMember.obj

/-- `offset<CELL, r>::operator()(member_ptr)`. Overload resolution (detail/macros.hpp:59-87): the non-template overload if
    the type is exactly that of member `r - 1`, else the template for arrays of other arity, else the generic template. -/
def offsetOp {V : Type} (ms : List (RegMember V)) : Nat → MemPtr → Except Exc Int
  | 0, _ => .error (.invalidArgument "member was not registered with LibFlatArray") -- detail/offset.hpp:43-47
  | r + 1, p =>
    match ms[r]? with
    | none => offsetOp ms r p -- never instantiated
    | some m =>
      if p.ty = m.ty then
        if p.name = m.name then .ok (toInt32 (offset (layoutOf ms) r)) -- 66-77
        else offsetOp ms r p                                             -- 78
      else if p.ty.elem = m.ty.elem ∧ p.ty.arity.isSome then offsetOp ms r p -- 82-87
      else offsetOp ms r p                                                   -- 59-64

/-- `member_ptr_to_offset::operator()` (member_ptr_to_offset.hpp:24-30). -/
def memberPtrToOffset {V : Type} (ms : List (RegMember V)) (p : MemPtr) : Except Exc Int := offsetOp ms ms.length p

end LFA
