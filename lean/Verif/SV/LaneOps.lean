/-
  What the arithmetic of each implementation of `short_vec` computes for a single lane, and the laws an implementation has to
  obey.
-/
import Verif.SV.Spec
set_option autoImplicit false

namespace LFA.SV

/-- The scalar functions which the operators apply to each lane. `none` is undefined behaviour. -/
structure LaneOps (w : Nat) where
  add : FEnv → BitVec w → BitVec w → Option (BitVec w)
  sub : FEnv → BitVec w → BitVec w → Option (BitVec w)
  mul : FEnv → BitVec w → BitVec w → Option (BitVec w)
  div : FEnv → BitVec w → BitVec w → Option (BitVec w)
  /-- `*=`, `/=` -/
  mulA : FEnv → BitVec w → BitVec w → Option (BitVec w) := mul
  divA : FEnv → BitVec w → BitVec w → Option (BitVec w) := div
  sqrt : FEnv → BitVec w → Option (BitVec w)
  /-- `x / sqrt(y)` -/
  divSqrt : FEnv → BitVec w → BitVec w → Option (BitVec w)

/-- Correctly rounded operations, given the operations of the type. -/
@[reducible] def LaneOps.ieee {w : Nat} (F : FEnv → FOps w) : LaneOps w where
  add E x y := some ((F E).add x y)
  sub E x y := some ((F E).sub x y)
  mul E x y := some ((F E).mul x y)
  div E x y := some ((F E).div x y)
  sqrt E x := some ((F E).sqrt x)
  divSqrt E x y := some ((F E).div x ((F E).sqrt y))

/-- SSE, `float`: `x / sqrt(y)` uses the reciprocal square root of the hardware (detail/short_vec_sse_float_4.hpp). -/
@[reducible] def LaneOps.sse32 : LaneOps 32 :=
  { LaneOps.ieee FEnv.f32 with divSqrt := fun E x y => some (E.f32.mul x (E.f32.rsqrt y)) }

/-- AVX, `float`: also uses the reciprocal of the hardware (detail/short_vec_avx_float_8.hpp). -/
@[reducible] def LaneOps.avx32 : LaneOps 32 :=
  { LaneOps.ieee FEnv.f32 with
    div := fun E x y => some (E.f32.mul x (E.f32.rcp y))
    divA := fun E x y => some (E.f32.mul x (E.f32.rcp y))
    divSqrt := fun E x y => some (E.f32.mul x (E.f32.rsqrt y)) }

/-- AVX512, `float` (detail/short_vec_avx512_float_16.hpp) -/
@[reducible] def LaneOps.avx512_32 : LaneOps 32 :=
  { LaneOps.ieee FEnv.f32 with
    div := fun E x y => some (E.f32.mul x (E.f32.rcp14 y))
    divA := fun E x y => some (E.f32.mul x (E.f32.rcp14 y))
    divSqrt := fun E x y => some (E.f32.mul x (E.f32.rsqrt14 y)) }

/-- MIC, `float` (detail/short_vec_mic_float_16.hpp) -/
@[reducible] def LaneOps.mic32 : LaneOps 32 :=
  { LaneOps.ieee FEnv.f32 with
    div := fun E x y => some (E.f32.mul x (E.f32.rcp23 y))
    divA := fun E x y => some (E.f32.mul x (E.f32.rcp23 y))
    divSqrt := fun E x y => some (E.f32.mul x (E.f32.rsqrt23 y)) }

/-- NEON: reciprocal after one step of Newton's method (detail/short_vec_neon_float_4.hpp:206-223). -/
def neonRecip (F : FOps 32) (y : BitVec 32) : BitVec 32 :=
  let r := F.recpe y
  F.mul (F.recps y r) r

/-- NEON: one more step of Newton's method, if `LIBFLATARRAY_WITH_INCREASED_PRECISION` is set. -/
def neonRecipPrec (F : FOps 32) (y : BitVec 32) : BitVec 32 :=
  let r := neonRecip F y
  F.mul (F.recps y r) r

/-- NEON: estimate of the reciprocal square root, infinity is replaced by zero (detail/short_vec_neon_float_4.hpp:196-204). -/
def neonEst (F : FOps 32) (y : BitVec 32) : BitVec 32 :=
  let r := F.rsqrte y
  ~~~pat 32 ((2139095040 : BitVec 32) == r) &&& r

theorem neonEst_eq (F : FOps 32) (y : BitVec 32) :
    neonEst F y = if F.rsqrte y = 2139095040 then 0 else F.rsqrte y := by
  have e : ∀ r : BitVec 32, ~~~pat 32 ((2139095040 : BitVec 32) == r) &&& r = if r = 2139095040 then 0 else r := by
    intro r
    by_cases h : r = 2139095040
    · subst h; decide
    · have h' : ((2139095040 : BitVec 32) == r) = false := by simpa using Ne.symm h
      rw [h', if_neg h]
      exact BitVec.allOnes_and
  exact e _

/-- NEON: one step of Newton's method (detail/short_vec_neon_float_4.hpp:206-219). -/
def neonStep (F : FOps 32) (y r : BitVec 32) : BitVec 32 := F.mul (F.rsqrts (F.mul r r) y) r

/-- NEON: reciprocal square root after one step. -/
def neonRsqrt (F : FOps 32) (y : BitVec 32) : BitVec 32 := neonStep F y (neonEst F y)

/-- NEON: one more step. -/
def neonRsqrtPrec (F : FOps 32) (y : BitVec 32) : BitVec 32 := neonStep F y (neonRsqrt F y)

/-- NEON, `float` -/
@[reducible] def LaneOps.neon32 (recip rsqrt : FOps 32 → BitVec 32 → BitVec 32) : LaneOps 32 :=
  { LaneOps.ieee FEnv.f32 with
    div := fun E x y => some (E.f32.mul x (recip E.f32 y))
    divA := fun E x y => some (E.f32.mul x (recip E.f32 y))
    sqrt := fun E x => some (E.f32.mul x (rsqrt E.f32 x))
    divSqrt := fun E x y => some (E.f32.mul x (recip E.f32 (E.f32.mul y (rsqrt E.f32 y)))) }

/-- QPX, `double` (detail/short_vec_qpx_double_4.hpp). `*=` adds. -/
@[reducible] def LaneOps.qpx64 : LaneOps 64 :=
  { LaneOps.ieee FEnv.f64 with
    mulA := fun E x y => some (E.f64.add x y)
    div := fun E x y => some (E.f64.swdiv x y)
    divA := fun E x y => some (E.f64.swdiv x y)
    sqrt := fun E x => some (E.f64.swsqrt x)
    divSqrt := fun E x y => some (E.f64.mul x (E.f64.qrsqrte y)) }

/-- `int`, without vector instructions (detail/short_vec_scalar_int_1.hpp). Overflow and division by zero are undefined. Square roots are
    computed in double precision. -/
@[reducible] def LaneOps.int : LaneOps 32 where
  add _ x y := iadd x y
  sub _ x y := isub x y
  mul _ x y := imul x y
  div _ x y := idiv x y
  sqrt E x := some (E.f64.toIntT (E.f64.sqrt (E.f64.ofInt x)))
  divSqrt E x y := idiv x (E.f64.toIntT (E.f64.sqrt (E.f64.ofInt y)))

/-- `int` in registers (detail/short_vec_sse_int_4.hpp): division and square roots are computed in single precision. `/` truncates, `/=`
    rounds to nearest (`conv` is `toIntR`) except in detail/short_vec_sse_int_8.hpp, where it truncates (`toIntT`). -/
@[reducible] def LaneOps.intSimd (rsqrt conv : FOps 32 → BitVec 32 → BitVec 32) : LaneOps 32 where
  add _ x y := iadd x y
  sub _ x y := isub x y
  mul _ x y := imul x y
  div E x y := some (E.f32.toIntT (E.f32.div (E.f32.ofInt x) (E.f32.ofInt y)))
  divA E x y := some (conv E.f32 (E.f32.div (E.f32.ofInt x) (E.f32.ofInt y)))
  sqrt E x := some (E.f32.toIntR (E.f32.sqrt (E.f32.ofInt x)))
  divSqrt E x y := some (E.f32.toIntR (E.f32.mul (E.f32.ofInt x) (rsqrt E.f32 (E.f32.ofInt y))))

/-- All arithmetic of an implementation works lane by lane. -/
structure Arith {w : Nat} (I : Impl w) (L : LaneOps w) : Prop where
  len : LenLaw I.N I.lanes
  bcast : ∀ E, BcastLaw I.N I.lanes (I.bcast E)
  add : ∀ E, BinLaw I.lanes (I.add E) (L.add E)
  sub : ∀ E, BinLaw I.lanes (I.sub E) (L.sub E)
  mul : ∀ E, BinLaw I.lanes (I.mul E) (L.mul E)
  div : ∀ E, BinLaw I.lanes (I.div E) (L.div E)
  addA : ∀ E, BinLaw I.lanes (I.addA E) (L.add E)
  subA : ∀ E, BinLaw I.lanes (I.subA E) (L.sub E)
  mulA : ∀ E, BinLaw I.lanes (I.mulA E) (L.mulA E)
  divA : ∀ E, BinLaw I.lanes (I.divA E) (L.divA E)
  sqrt : ∀ E, UnLaw I.lanes (I.sqrt E) (L.sqrt E)
  sqrtM : ∀ E, UnLaw I.lanes (I.sqrtM E) (L.sqrt E)
  divSqrt : ∀ E, BinLaw I.lanes (I.divSqrt E) (L.divSqrt E)
  divSqrtA : ∀ E, BinLaw I.lanes (I.divSqrtA E) (L.divSqrt E)

/-- Requirements on addresses. -/
structure Reqs where
  /-- `load`, `store`, `short_vec(p)`, `short_vec({…})`: bytes -/
  any : Nat := 1
  /-- `load_aligned`, `store_aligned`: bytes -/
  aligned : Nat
  /-- `store_nt`: bytes. `none` if the instructions do not store the vector at all. -/
  nt : Option Nat
  /-- `gather`, `scatter`: alignment of the array of offsets -/
  offsets : Nat := 1
  /-- may offsets of `gather` be negative? -/
  neg : Bool := true

/-- All memory accesses of an implementation transfer lane `i` to or from element `i`. -/
structure MemLaws {w : Nat} (I : Impl w) (R : Reqs) : Prop where
  load : ∀ E v, LoadLaw I.N I.lanes (fun m p => I.load E m v p) R.any
  loadA : ∀ E v, LoadLaw I.N I.lanes (fun m p => I.loadA E m v p) R.aligned
  ofPtr : ∀ E, LoadLaw I.N I.lanes (I.ofPtr E) R.any
  ofList : ∀ E, LoadLaw I.N I.lanes (I.ofList E) R.any
  store : ∀ E, StoreLaw I.N I.lanes (I.store E) R.any
  storeA : ∀ E, StoreLaw I.N I.lanes (I.storeA E) R.aligned
  storeNT : ∀ E al, R.nt = some al → StoreLaw I.N I.lanes (I.storeNT E) al
  shl : ∀ E, StoreLaw I.N I.lanes (I.shl E) R.any
  gather : ∀ E v, GatherLaw I.N I.lanes (fun m mo p o => I.gather E m mo v p o) R.offsets R.neg
  scatter : ∀ E, ScatterLaw I.N I.lanes (I.scatter E) R.offsets

theorem ntOf {P : Nat → Prop} {n : Nat} (h : P n) : ∀ al, some n = some al → P al := fun _ e => Option.some.inj e ▸ h

/-- Comparisons select exactly the lanes for which the scalar comparison holds, `blend`, `any` and `[]` fit these masks. -/
structure CmpLaws {w : Nat} {I : Impl w} (C : Cmp I) (F : FEnv → FOps w) : Prop where
  lt : ∀ E, CmpLaw I.lanes C.kind (C.lt E) (F E).lt
  le : ∀ E, CmpLaw I.lanes C.kind (C.le E) (F E).le
  eq : ∀ E, CmpLaw I.lanes C.kind (C.eq E) (F E).eq
  gt : ∀ E, CmpLaw I.lanes C.kind (C.gt E) (F E).gt
  ge : ∀ E, CmpLaw I.lanes C.kind (C.ge E) (F E).ge
  blend : ∀ E, BlendLaw I.N I.lanes C.kind (C.blend E)
  any : ∀ E, AnyLaw I.N I.lanes C.kind (C.any E)
  vany : ∀ E, AnyLaw I.N I.lanes (MaskKind.vec : MaskKind I.V I.V) (C.vany E)
  index : ∀ E, IndexLaw I.N I.lanes (C.index E)

theorem cmpOf {w : Nat} {I : Impl w} {C : Cmp I} {F : FEnv → FOps w} (h : CmpLaws C F) : ∀ C', some C = some C' → CmpLaws C' F :=
  fun _ e => Option.some.inj e ▸ h

end LFA.SV
