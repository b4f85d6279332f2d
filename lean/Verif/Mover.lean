import Verif.GridKernel
import Verif.SoaArray

/-
  Elements which move between soa_arrays: a vector of one member is compared to a threshold, if `any()` of the lanes moves then the elements
  are moved one by one by `push_back`, else the whole block stays and is copied by `load`. This is ParticleMoverGold
  (examples/performance_tests/main.cpp:1992-2076).
-/
set_option linter.unusedSectionVars false
namespace LFA.GK
open SV (Expr Entry FEnv FOps Mem Writes Cmp Rel)

variable {V : Type} [DecidableEq V] {w : Nat}

/-- `&a[i].member()` (main.cpp:2029), counted in elements of `w` bits; the soa_array is at address `base`, `i` is converted to `int`. -/
def arrElem (L : Layout V) (base N i r : Nat) (m : Member V) : Option Int :=
  let p := base + (SArr.acc N (toInt32 i)).userRef L r m 0
  if m.ty.size = w / 8 ∧ ((w / 8 : Nat) : Int) ∣ p then some (p / (w / 8 : Nat)) else none

/-- `short_vec<float, 8>(&a[i].member())` (main.cpp:2029). -/
def arrLoad (L : Layout V) (B : Bits w V) (E : FEnv) (base : Nat) (e : Entry w) (a : SArr V) (i r : Nat) : Option e.impl.V :=
  match L[r]? with
  | none => none
  | some m => (arrElem (w := w) L base a.N i r m).bind (Mode.plain.load e.impl E (view B m.ty base a.data))

/-- What the program is about: members of the struct, number representation, addresses of the soa_arrays, arithmetic, the member which is
    compared (`posX`), and the struct to which an accessor is converted before members are copied (macros.hpp:168-173). -/
structure Mover (w : Nat) (V : Type) where
  L : Layout V
  B : Bits w V
  base : Nat → Nat
  E : FEnv
  F : FOps w
  r : Nat
  t : Cell V

/-- Sequential composition; an exception ends the program. -/
def andThen (x : Except UB (ArrWorld V × ArrOut V)) (f : ArrWorld V → ArrOut V → Except UB (ArrWorld V × ArrOut V)) :
    Except UB (ArrWorld V × ArrOut V) :=
  match x with
  | .error u => .error u
  | .ok (W, .threw e) => .ok (W, .threw e)
  | .ok (W, o) => f W o

/-- `if (src[j].posX() >= boundary) dst.push_back(Particle(src[j])); else stay.push_back(Particle(src[j]));` (main.cpp:2031-2035, 2050-2054). -/
def Mover.one (M : Mover w V) (rel : Rel) (b : BitVec w) (src stay dst j : Nat) (W : ArrWorld V) : Except UB (ArrWorld V × ArrOut V) :=
  andThen (W.step M.L (.peek src (toInt32 j) M.r 0)) fun W o =>
    match o with
    | .val v =>
      match M.B.bits v with
      | none => .error .oob
      | some x => andThen (W.step M.L (.get src (toInt32 j) M.t)) fun W o =>
          match o with
          | .cells [c] => W.step M.L (.push (if M.F.rel rel x b then dst else stay) c)
          | _ => .error .oob
    | _ => .error .oob

/-- `for (j = i; j < i + 8; ++j)` (main.cpp:2030-2036, 2049-2055): `n` elements from `j`. -/
def Mover.each (M : Mover w V) (rel : Rel) (b : BitVec w) (src stay dst : Nat) : Nat → Nat → ArrWorld V → Except UB (ArrWorld V × ArrOut V)
  | 0, _, W => .ok (W, .unit)
  | n + 1, j, W => andThen (M.one rel b src stay dst j W) fun W _ => Mover.each M rel b src stay dst n (j + 1) W

/-- Body of the loop over blocks (main.cpp:2029-2044, 2048-2063). `bv` is `boundaryVec`, `b` is `boundary`. -/
def Mover.block (M : Mover w V) (e : Entry w) (rel : Rel) (bv : e.impl.V) (b : BitVec w) (src stay dst i : Nat) (W : ArrWorld V) :
    Except UB (ArrWorld V × ArrOut V) :=
  W.withA src fun a =>
    match (arrLoad M.L M.B M.E (M.base src) e a i M.r).bind fun v => e.cmp.bind fun D => (D.rel M.E rel v bv).map (D.any M.E) with
    | none => .error .oob
    | some true => M.each rel b src stay dst e.impl.N i W
    | some false => W.step M.L (.append stay src (toInt32 i).toNat e.impl.N)

/-- `for (i = 0; i < src.size(); i += 8)` (main.cpp:2028, 2047). The loop ends after at most `size()` iterations, which is what `k` counts. -/
def Mover.pass (M : Mover w V) (e : Entry w) (rel : Rel) (bv : e.impl.V) (b : BitVec w) (src stay dst : Nat) :
    Nat → Nat → ArrWorld V → Except UB (ArrWorld V × ArrOut V)
  | 0, i, W => W.withA src fun a => if i < a.n then .error .oob else .ok (W, .unit)
  | k + 1, i, W => W.withA src fun a =>
      if i < a.n then andThen (M.block e rel bv b src stay dst i W) fun W _ => Mover.pass M e rel bv b src stay dst k (i + e.impl.N) W
      else .ok (W, .unit)

/-- Calls `f` with the `size()` of an array. -/
def withSize (W : ArrWorld V) (s : Nat) (f : Nat → Except UB (ArrWorld V × ArrOut V)) : Except UB (ArrWorld V × ArrOut V) :=
  W.withA s fun a => f a.n

/-- One time step without the update of `boundary` (main.cpp:2025-2067). Arrays 0 to 3 are `left`, `right`, `newLeft` and `newRight`. -/
def Mover.step (M : Mover w V) (e : Entry w) (bv : e.impl.V) (b : BitVec w) (W : ArrWorld V) : Except UB (ArrWorld V × ArrOut V) :=
  andThen (W.step M.L (.clear 2)) fun W _ =>
  andThen (W.step M.L (.clear 3)) fun W _ =>
  andThen (withSize W 0 fun n => M.pass e .ge bv b 0 2 3 n 0 W) fun W _ =>
  andThen (withSize W 1 fun n => M.pass e .lt bv b 1 3 2 n 0 W) fun W _ =>
  andThen (W.step M.L (.swap 0 2)) fun W _ => W.step M.L (.swap 1 3)

/-- The time steps (main.cpp:2024-2070). `flip` is `boundary = 1.0 - boundary` (main.cpp:2069); `boundaryVec` is not updated. -/
def Mover.steps (M : Mover w V) (e : Entry w) (bv : e.impl.V) (flip : BitVec w → BitVec w) :
    Nat → BitVec w → ArrWorld V → Except UB (ArrWorld V × ArrOut V)
  | 0, _, W => .ok (W, .unit)
  | n + 1, b, W => andThen (M.step e bv b W) fun W _ => Mover.steps M e bv flip n (flip b) W

/-- From the definition of `boundaryVec` on (main.cpp:2003-2004, 2021-2070). -/
def Mover.run (M : Mover w V) (e : Entry w) (flip : BitVec w → BitVec w) (n : Nat) (b : BitVec w) (W : ArrWorld V) :
    Except UB (ArrWorld V × ArrOut V) :=
  M.steps e (e.impl.bcast M.E b) flip n b W

end LFA.GK
