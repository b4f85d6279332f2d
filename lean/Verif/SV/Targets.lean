/-
  What is expected of `short_vec<T, ARITY>` on each target: which scalar functions the operators apply to the lanes, and which
  addresses may be passed to loads and stores.
-/
import Verif.SV.LaneOps
set_option autoImplicit false

namespace LFA.SV

/-- `short_vec<float, n>` -/
@[reducible] def floatOps (c : Cfg) (n : Nat) : LaneOps 32 :=
  if n ≤ 2 then .ieee FEnv.f32
  else match c with
    | .scalar | .qpx => .ieee FEnv.f32
    | .neon | .neon_lp64 => .neon32 neonRecip neonRsqrt
    | .neon_prec | .neon_prec_lp64 => .neon32 neonRecipPrec neonRsqrtPrec
    | .mic => if n ≤ 8 then .ieee FEnv.f32 else .mic32
    | .avx512f => if n ≤ 4 then .sse32 else if n ≤ 8 then .avx32 else .avx512_32
    | .avx | .avx2 => if n ≤ 4 then .sse32 else .avx32
    | .sse | .sse2 | .sse41 => .sse32

/-- `short_vec<double, n>` -/
@[reducible] def doubleOps (c : Cfg) (n : Nat) : LaneOps 64 :=
  match c with
  | .qpx => if n ≤ 2 then .ieee FEnv.f64 else .qpx64
  | _ => .ieee FEnv.f64

/-- `short_vec<int, n>` -/
@[reducible] def intOps (c : Cfg) (n : Nat) : LaneOps 32 :=
  if n ≤ 2 then .int
  else match c with
    | .scalar | .qpx | .neon | .neon_lp64 | .neon_prec | .neon_prec_lp64 | .mic => .int
    | .avx512f => .intSimd (if n ≤ 8 then FOps.rsqrt else FOps.rsqrt14) FOps.toIntR
    | .avx2 => .intSimd FOps.rsqrt FOps.toIntR
    | .avx | .sse | .sse2 | .sse41 => .intSimd FOps.rsqrt (if n = 8 then FOps.toIntT else FOps.toIntR)

/-- Any address will do. -/
@[reducible] def Reqs.none : Reqs := ⟨1, 1, some 1, 1, true⟩
/-- Registers of `al` bytes, unaligned accesses are possible. -/
@[reducible] def Reqs.reg (al : Nat) : Reqs := ⟨1, al, some al, 1, true⟩

/-- `short_vec<float, n>` -/
@[reducible] def floatReqs (c : Cfg) (n : Nat) : Reqs :=
  if n ≤ 2 then .none
  else match c with
    | .scalar | .qpx => .none
    | .neon | .neon_prec => { Reqs.none with aligned := 4 * n }
    | .neon_lp64 | .neon_prec_lp64 => { Reqs.none with aligned := 4 * n, nt := Option.none }
    | .mic => if n ≤ 8 then .none else { Reqs.reg 64 with offsets := 64 }
    | .avx512f => if n ≤ 4 then { Reqs.reg 16 with neg := false } else if n ≤ 8 then .reg 32 else { Reqs.reg 64 with offsets := 64 }
    | .avx => if n ≤ 4 then { Reqs.reg 16 with neg := false } else { Reqs.reg 32 with neg := false }
    | .avx2 => if n ≤ 4 then { Reqs.reg 16 with neg := false } else .reg 32
    | .sse | .sse2 => .reg 16
    | .sse41 => { Reqs.reg 16 with neg := false }

/-- `short_vec<double, n>` -/
@[reducible] def doubleReqs (c : Cfg) (n : Nat) : Reqs :=
  match c with
  | .scalar | .neon | .neon_prec | .neon_lp64 | .neon_prec_lp64 => .none
  | .qpx => if n ≤ 2 then .none else ⟨32, 32, some 32, 1, true⟩
  | .mic => if n ≤ 4 then .none else { Reqs.reg 64 with offsets := if n ≤ 8 then 32 else 64 }
  | .avx512f => if n ≤ 1 then .none else if n ≤ 2 then .reg 16 else if n ≤ 4 then .reg 32 else .reg 64
  | .avx | .avx2 => if n ≤ 1 then .none else if n ≤ 2 then .reg 16 else .reg 32
  | .sse | .sse2 | .sse41 => if n ≤ 1 then .none else .reg 16

/-- `short_vec<int, n>` -/
@[reducible] def intReqs (c : Cfg) (n : Nat) : Reqs :=
  if n ≤ 2 then .none
  else match c with
    | .scalar | .qpx | .neon | .neon_prec | .neon_lp64 | .neon_prec_lp64 | .mic => .none
    | .avx512f => if n ≤ 4 then .reg 16 else if n ≤ 8 then .reg 32 else .reg 64
    | .avx2 => if n ≤ 4 then .reg 16 else .reg 32
    | .avx | .sse | .sse2 | .sse41 => .reg 16

end LFA.SV
