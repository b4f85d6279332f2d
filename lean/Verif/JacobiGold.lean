import Verif.IntrinsicKernel

/-
  The same stencil, written with short_vecs and the loop peeler: JacobiD3Q7Gold (examples/performance_tests/main.cpp:705-855).
-/
set_option linter.unusedSectionVars false
namespace LFA.GK
open SV (Expr Entry FEnv)

variable {V : Type} [DecidableEq V]

/-- The body of the loop in `update_line` (examples/performance_tests/main.cpp:777-790): `buf = …; buf += …; &accessor_new.temp() << buf`. The
    weights are broadcast before the loop (main.cpp:764-769). -/
def Jacobi.goldCode (K : Jacobi) : Stencil 64 where
  code := .add (.add (.add (.add (.add (.mul (.var 0) (.const K.S)) (.mul (.var 1) (.const K.T))) (.mul (.var 2) (.const K.W)))
    (.mul (.var 3) (.const K.E))) (.mul (.var 4) (.const K.B))) (.mul (.var 5) (.const K.N))
  new := fun _ => false
  src := fun
    | 0 => ⟨0, 0, -1, K.r, K.k⟩
    | 1 => ⟨0, -1, 0, K.r, K.k⟩
    | 2 => ⟨-1, 0, 0, K.r, K.k⟩
    | 3 => ⟨1, 0, 0, K.r, K.k⟩
    | 4 => ⟨0, 1, 0, K.r, K.k⟩
    | _ => ⟨0, 0, 1, K.r, K.k⟩
  dst := ⟨0, 0, 0, K.r, K.k⟩
  mode := .plain

/-- The ranges of the loops (examples/performance_tests/main.cpp:732-735). -/
def Jacobi.goldBox (nx ny nz : Int) : Box := ⟨1, nx - 1, 1, ny - 1, 1, nz - 1⟩

/-- `gridOld.callback(&gridNew, functor)` (examples/performance_tests/main.cpp:842), with the functor of main.cpp:708-805: the loop peeler runs
    over `std::size_t`s. `e` is the vector which `estimate_optimum_short_vec_type` selects, `e1` its scalar counterpart. Without OpenMP: the
    clause `firstprivate(accessorOld, accessorNew)` (main.cpp:730) does not compile. -/
def Jacobi.gold (C : Cfg V) (B : Bits 64 V) (base : Nat → Nat) (E : FEnv) (K : Jacobi) (e1 e : Entry 64) (nx ny nz : Int) (W : World V)
    (s o : Nat) : Except UB (World V × Out V) :=
  update C B base E K.goldCode (.unsigned 64) e1 e (goldBox nx ny nz) W s o

/-- The loop over time steps (examples/performance_tests/main.cpp:841-845). -/
def Jacobi.goldSteps (C : Cfg V) (B : Bits 64 V) (base : Nat → Nat) (E : FEnv) (K : Jacobi) (e1 e : Entry 64) (nx ny nz : Int)
    (s o n : Nat) (W : World V) : Except UB (World V × Out V) :=
  timeSteps C B base E K.goldCode (.unsigned 64) e1 e (goldBox nx ny nz) s o n W

end LFA.GK
