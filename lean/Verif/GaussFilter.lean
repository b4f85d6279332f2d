import Verif.OmpKernel

/-
  The Gauss filter (examples/gauss/main.cpp:142-252), a stencil on 25 cells of a plane, with its weights.
-/
set_option linter.unusedSectionVars false
namespace LFA.GK
open SV (Expr Entry FEnv FOps)

variable {V : Type} [DecidableEq V]

/-- `raw q` is the value of `exp(-0.5 * q) / 2 / M_PI` (examples/gauss/main.cpp:222-223), whatever the `exp` of the C library returns; `r` and
    `k` identify the member `temp`. Simplification: the sum of two squares of integers from -2 to 2 is exact, hence a natural number. -/
structure Gauss where
  raw : Nat → BitVec 64
  r : Nat
  k : Nat

/-- `weights[y][x]` before it is normalised (examples/gauss/main.cpp:220-223). -/
def Gauss.raws (K : Gauss) (y x : Nat) : BitVec 64 := K.raw (((x : Int) - 2) ^ 2 + ((y : Int) - 2) ^ 2).toNat

/-- `sum` (examples/gauss/main.cpp:216-226): the loop over `y` is the outer one. -/
def Gauss.total (K : Gauss) (F : FOps 64) : BitVec 64 :=
  (List.range 5).foldl (fun sum y => (List.range 5).foldl (fun sum x => F.add sum (K.raws y x)) sum) 0

/-- `weights[y][x]` (examples/gauss/main.cpp:227-231) -/
def Gauss.weights (K : Gauss) (F : FOps 64) (y x : Nat) : BitVec 64 := F.div (K.raws y x) (K.total F)

/-- The terms of the sum: y- and z-offset of the neighbour and its weight, in the order of the statements (examples/gauss/main.cpp:172-200). -/
def Gauss.taps (w00 w01 w02 w11 w12 w22 : BitVec 64) : List (Int × Int × BitVec 64) := [
    (-2, -2, w22), (-1, -2, w12), (0, -2, w02), (1, -2, w12), (2, -2, w22),
    (-2, -1, w12), (-1, -1, w11), (0, -1, w01), (1, -1, w11), (2, -1, w12),
    (-2, 0, w02), (-1, 0, w01), (0, 0, w00), (1, 0, w01), (2, 0, w02),
    (-2, 1, w12), (-1, 1, w11), (0, 1, w01), (1, 1, w11), (2, 1, w12),
    (-2, 2, w22), (-1, 2, w12), (0, 2, w02), (1, 2, w12), (2, 2, w22)]

/-- `buf += SHORT_VEC(&accessor_old[coord<0, Y, Z>()].temp()) * weight`, for the terms from number `j` on. -/
def Gauss.sums : Nat → Expr 64 → List (Int × Int × BitVec 64) → Expr 64
  | _, buf, [] => buf
  | j, buf, t :: ts => sums (j + 1) (.add buf (.mul (.var j) (.const t.2.2))) ts

/-- The body of the loop of `filter` (examples/gauss/main.cpp:170-207) -/
def Gauss.filter (K : Gauss) (w00 w01 w02 w11 w12 w22 : BitVec 64) : Stencil 64 where
  code := match taps w00 w01 w02 w11 w12 w22 with
    | [] => .const 0
    | t :: ts => sums 1 (.mul (.var 0) (.const t.2.2)) ts
  new := fun _ => false
  src := fun j => match (taps w00 w01 w02 w11 w12 w22)[j]? with
    | some t => ⟨0, t.1, t.2.1, K.r, K.k⟩
    | none => ⟨0, 0, 0, K.r, K.k⟩
  dst := ⟨0, 0, 0, K.r, K.k⟩
  mode := .plain

/-- The functor, with the arguments which `operator()` passes to `filter` (examples/gauss/main.cpp:241-243). -/
def Gauss.functor (K : Gauss) (F : FOps 64) : Stencil 64 :=
  K.filter (K.weights F 2 2) (K.weights F 2 1) (K.weights F 2 0) (K.weights F 1 1) (K.weights F 1 0) (K.weights F 0 0)

/-- The ranges of the loops (examples/gauss/main.cpp:236-239). `dim_y - 2` wraps around, and `int(dim_z - 2)` is cut to 32 bits. -/
def Gauss.box (nx ny nz : Nat) : Box := ⟨0, nx, 2, ((ny : Int) - 2) % 2 ^ 64, 2, ((nz : Int) - 2).bmod (2 ^ 32)⟩

/-- `grid_old.callback(&grid_new, functor)` (examples/gauss/main.cpp:284), without OpenMP. The loop peeler runs over `std::size_t`s, `e` is the
    vector which `estimate_optimum_short_vec_type` selects and `e1` its scalar counterpart. -/
def Gauss.call (C : Cfg V) (B : Bits 64 V) (base : Nat → Nat) (E : FEnv) (K : Gauss) (e1 e : Entry 64) (nx ny nz : Nat) (W : World V)
    (s o : Nat) : Except UB (World V × Out V) :=
  update C B base E (K.functor E.f64) (.unsigned 64) e1 e (box nx ny nz) W s o

/-- The loop over time steps (examples/gauss/main.cpp:297-301), without OpenMP. -/
def Gauss.steps (C : Cfg V) (B : Bits 64 V) (base : Nat → Nat) (E : FEnv) (K : Gauss) (e1 e : Entry 64) (nx ny nz : Nat)
    (s o n : Nat) (W : World V) : Except UB (World V × Out V) :=
  timeSteps C B base E (K.functor E.f64) (.unsigned 64) e1 e (box nx ny nz) s o n W

/-- The same with OpenMP (examples/gauss/main.cpp:233-235): `n` threads, thread `i` handles the z-coordinates `zs i`, and the threads of
    each step take turns as its schedule says. -/
def Gauss.stepsPar (C : Cfg V) (B : Bits 64 V) (base : Nat → Nat) (E : FEnv) (K : Gauss) (e1 e : Entry 64) (nx ny nz : Nat)
    (n : Nat) (zs : Nat → List Int) (s o : Nat) (scheds : List (List Nat)) (W : World V) : Option (Except UB (World V × Out V)) :=
  timeStepsPar C B base E (K.functor E.f64) (.unsigned 64) e1 e (box nx ny nz) n zs s o scheds W

end LFA.GK
