import Verif.PairKernel

/-
  A functor which mixes scalar code with SSE2 intrinsics that access members through the pointers which the accessors yield:
  JacobiD3Q7Silver (examples/performance_tests/main.cpp:476-640).
-/
set_option linter.unusedSectionVars false
namespace LFA.GK
open SV (FEnv FOps Mem Writes M128d _mm_load_pd _mm_loadu_pd _mm_stream_pd _mm_mul_pd _mm_add_pd _mm_set1_pd)

/-- The weights (examples/performance_tests/main.cpp:47-53), and which member is `temp()`. -/
structure Jacobi where
  (S T W C E B N : BitVec 64)
  (r k : Nat)

variable {V : Type} [DecidableEq V]

/-- `accessor[coord<X, Y, Z>()].temp()` as a value, for an accessor with the index `i`. -/
def Jacobi.get (D : Env 64 V) (K : Jacobi) (id : Nat) (e : Ext) (h : Heap V) (i X Y Z : Int) : Option (BitVec 64) :=
  match D.L[K.r]?, h.blk id with
  | some m, some b => (elem (w := 64) D.L (D.base id) e i 0 0 ⟨X, Y, Z, K.r, K.k⟩ m).bind (view D.B m.ty (D.base id) b)
  | _, _ => none

/-- `accessor.temp() = v`. -/
def Jacobi.set (D : Env 64 V) (K : Jacobi) (id : Nat) (e : Ext) (i : Int) (v : BitVec 64) (h : Heap V) : Option (Heap V) :=
  match D.L[K.r]?, h.blk id with
  | some m, some b => (elem (w := 64) D.L (D.base id) e i 0 0 ⟨0, 0, 0, K.r, K.k⟩ m).bind fun q =>
      match put D.B m.ty (D.base id) [(q, v)] b with
      | .ok b' => some (h.set id b')
      | .error _ => none
  | _, _ => none

/-- A load from `&accessor[coord<X, Y, Z>()].temp() + n` by the intrinsic `ld`, e.g. examples/performance_tests/main.cpp:533. -/
def Jacobi.ld (D : Env 64 V) (K : Jacobi) (ld : Mem 64 → Int → Option M128d) (id : Nat) (e : Ext) (h : Heap V) (i X Y Z n : Int) :
    Option M128d :=
  match D.L[K.r]?, h.blk id with
  | some m, some b => (elem (w := 64) D.L (D.base id) e i 0 0 ⟨X, Y, Z, K.r, K.k⟩ m).bind fun q => ld (view D.B m.ty (D.base id) b) (q + n)
  | _, _ => none

/-- `_mm_stream_pd(&accessor[coord<0, 0, 0>()].temp() + n, v)`, e.g. examples/performance_tests/main.cpp:608. -/
def Jacobi.stream (D : Env 64 V) (K : Jacobi) (id : Nat) (e : Ext) (i n : Int) (v : M128d) (h : Heap V) : Option (Heap V) :=
  match D.L[K.r]?, h.blk id with
  | some m, some b => (elem (w := 64) D.L (D.base id) e i 0 0 ⟨0, 0, 0, K.r, K.k⟩ m).bind fun q => (_mm_stream_pd (q + n) v).bind fun ws =>
      match put D.B m.ty (D.base id) ws b with
      | .ok b' => some (h.set id b')
      | .error _ => none
  | _, _ => none

/-- The scalar code (examples/performance_tests/main.cpp:512-519, 618-625). Both accessors have the index `i`. -/
def Jacobi.cell (D : Env 64 V) (K : Jacobi) (A : Pair) (i : Int) (h : Heap V) : Option (Heap V) := do
  let F := D.E.f64
  let s ← K.get D A.ids A.es h i 0 0 (-1)
  let t ← K.get D A.ids A.es h i 0 (-1) 0
  let w ← K.get D A.ids A.es h i (-1) 0 0
  let c ← K.get D A.ids A.es h i 0 0 0
  let e ← K.get D A.ids A.es h i 1 0 0
  let b ← K.get D A.ids A.es h i 0 1 0
  let n ← K.get D A.ids A.es h i 0 0 1
  K.set D A.idt A.et i (F.add (F.add (F.add (F.add (F.add (F.add (F.mul s K.S) (F.mul t K.T)) (F.mul w K.W)) (F.mul c K.C)) (F.mul e K.E))
    (F.mul b K.B)) (F.mul n K.N)) h

/-- The body of the vectorised loop (examples/performance_tests/main.cpp:532-611). -/
def Jacobi.block (D : Env 64 V) (K : Jacobi) (A : Pair) (i : Int) (h : Heap V) : Option (Heap V) := do
  let E := D.E
  let ld := K.ld D _mm_load_pd A.ids A.es h i
  let ldu := K.ld D _mm_loadu_pd A.ids A.es h i
  let factorS := _mm_set1_pd K.S
  let factorT := _mm_set1_pd K.T
  let factorW := _mm_set1_pd K.W
  let factorE := _mm_set1_pd K.E
  let factorB := _mm_set1_pd K.B
  let factorN := _mm_set1_pd K.N
  let bufA ← ld 0 0 (-1) 0
  let bufB ← ld 0 0 (-1) 2
  let bufC ← ld 0 0 (-1) 4
  let bufD ← ld 0 0 (-1) 6
  let bufA := _mm_mul_pd E bufA factorS
  let bufB := _mm_mul_pd E bufB factorS
  let bufC := _mm_mul_pd E bufC factorS
  let bufD := _mm_mul_pd E bufD factorS
  let sumA ← ld 0 (-1) 0 0
  let sumB ← ld 0 (-1) 0 2
  let sumC ← ld 0 (-1) 0 4
  let sumD ← ld 0 (-1) 0 6
  let sumA := _mm_mul_pd E sumA factorT
  let sumB := _mm_mul_pd E sumB factorT
  let sumC := _mm_mul_pd E sumC factorT
  let sumD := _mm_mul_pd E sumD factorT
  let sumA := _mm_add_pd E sumA bufA
  let sumB := _mm_add_pd E sumB bufB
  let sumC := _mm_add_pd E sumC bufC
  let sumD := _mm_add_pd E sumD bufD
  let bufA ← ldu 0 0 0 (-1)
  let bufB ← ldu 0 0 0 1
  let bufC ← ldu 0 0 0 3
  let bufD ← ldu 0 0 0 5
  let bufE ← ldu 0 0 0 7
  let sumA := _mm_add_pd E sumA (_mm_mul_pd E bufA factorW)
  let sumB := _mm_add_pd E sumB (_mm_mul_pd E bufB factorW)
  let sumC := _mm_add_pd E sumC (_mm_mul_pd E bufC factorW)
  let sumD := _mm_add_pd E sumD (_mm_mul_pd E bufD factorW)
  let sumA := _mm_add_pd E sumA (_mm_mul_pd E bufB factorE)
  let sumB := _mm_add_pd E sumB (_mm_mul_pd E bufC factorE)
  let sumC := _mm_add_pd E sumC (_mm_mul_pd E bufD factorE)
  let sumD := _mm_add_pd E sumD (_mm_mul_pd E bufE factorE)
  let bufA ← ld 0 1 0 0
  let bufB ← ld 0 1 0 2
  let bufC ← ld 0 1 0 4
  let bufD ← ld 0 1 0 6
  let bufA := _mm_mul_pd E bufA factorB
  let bufB := _mm_mul_pd E bufB factorB
  let bufC := _mm_mul_pd E bufC factorB
  let bufD := _mm_mul_pd E bufD factorB
  let sumA := _mm_add_pd E sumA bufA
  let sumB := _mm_add_pd E sumB bufB
  let sumC := _mm_add_pd E sumC bufC
  let sumD := _mm_add_pd E sumD bufD
  let bufA ← ld 0 0 1 0
  let bufB ← ld 0 0 1 2
  let bufC ← ld 0 0 1 4
  let bufD ← ld 0 0 1 6
  let bufA := _mm_mul_pd E bufA factorN
  let bufB := _mm_mul_pd E bufB factorN
  let bufC := _mm_mul_pd E bufC factorN
  let bufD := _mm_mul_pd E bufD factorN
  let sumA := _mm_add_pd E sumA bufA
  let sumB := _mm_add_pd E sumB bufB
  let sumC := _mm_add_pd E sumC bufC
  let sumD := _mm_add_pd E sumD bufD
  let h ← K.stream D A.idt A.et i 0 sumA h
  let h ← K.stream D A.idt A.et i 2 sumB h
  let h ← K.stream D A.idt A.et i 4 sumC h
  K.stream D A.idt A.et i 6 sumD h

/-- `for (; index < stop; index += step)`: the loops over a row. `none` also if the loop is not over after the given number of
    iterations. -/
def loop (f : Int → Heap V → Option (Heap V)) (step stop : Int) : Nat → Int → Heap V → Option (Int × Heap V)
  | 0, i, h => if i < stop then none else some (i, h)
  | n + 1, i, h => if i < stop then (f i h).bind (loop f step stop n (i + step)) else some (i, h)

/-- One row (examples/performance_tests/main.cpp:501-627): one cell, blocks of 8 cells, the remaining ones. Both accessors start at
    `indexStart`, which is computed for the first one, so they always have the same index. -/
def Jacobi.row (D : Env 64 V) (K : Jacobi) (A : Pair) (nx y z : Int) (h : Heap V) : Option (Heap V) := do
  let indexStart := genIndex A.es 1 y z
  let indexEnd := genIndex A.es (nx - 1) y z
  let h ← K.cell D A indexStart h
  let q ← loop (K.block D A) 8 (indexEnd - 7) nx.toNat (indexStart + 1) h
  let q ← loop (K.cell D A) 1 (indexEnd - 1) nx.toNat q.1 q.2
  pure q.2

/-- The loops over z and y (examples/performance_tests/main.cpp:499-500). -/
def Jacobi.sweep (D : Env 64 V) (K : Jacobi) (A : Pair) (nx : Int) : List (Int × Int) → Heap V → Option (Heap V)
  | [], h => some h
  | (y, z) :: rs, h => (K.row D A nx y z h).bind (K.sweep D A nx rs)

/-- The rows which are updated (examples/performance_tests/main.cpp:499-500). -/
def Jacobi.box (ny nz : Int) : Box := ⟨0, 0, 1, ny - 1, 1, nz - 1⟩

/-- `gridOld.callback(&gridNew, UpdateFunctor(nx, ny, nz))` (soa_grid.hpp:172-184). Which kind of undefined behaviour occurs is not
    distinguished. -/
def Jacobi.silver (C : Cfg V) (B : Bits 64 V) (base : Nat → Nat) (E : FEnv) (K : Jacobi) (nx ny nz : Int) (W : World V) (s o : Nat) :
    Except UB (World V × Out V) :=
  W.withG s fun g => W.withG o fun g' => W.ofH (fun _ => .unit) (g.dualCallback C g' (fun es et h =>
    match K.sweep ⟨C.L, B, base, E⟩ ⟨es, et, g.data.getD h.next, g'.data.getD h.next⟩ nx (Jacobi.box ny nz).rows h with
    | some h' => .ok () h'
    | none => .ub .oob) W.h)

/-- `n` time steps: `gridOld.callback(&gridNew, functor); swap(gridOld, gridNew)` (examples/performance_tests/main.cpp:670-674). An
    exception ends the loop. -/
def Jacobi.steps (C : Cfg V) (B : Bits 64 V) (base : Nat → Nat) (E : FEnv) (K : Jacobi) (nx ny nz : Int) (s o : Nat) :
    Nat → World V → Except UB (World V × Out V)
  | 0, W => .ok (W, .unit)
  | n + 1, W =>
    match K.silver C B base E nx ny nz W s o with
    | .error u => .error u
    | .ok (W', .threw x) => .ok (W', .threw x)
    | .ok (W', _) =>
      match W'.step C (.swap s o) with
      | .error u => .error u
      | .ok (W'', _) => K.steps C B base E nx ny nz s o n W''

end LFA.GK
