import Verif.OmpKernel
import Verif.Cuda

/-
  Functors which `callback` runs on two grids, and which walk through the grids by advancing the index of the accessors: along rows as in
  examples/performance_tests/main.cpp:346-399, or along the z-axis by the threads of a CUDA kernel as in examples/lbm/cell.h:30-134 and
  examples/lbm/cudalineupdatefunctorprototype.h:6-37.

  For CUDA kernels the grids are in memory which the device can access. Each read or write of a member is one step, and the threads take turns in an
  arbitrary order. As usual for sequentially consistent models, this is only adequate for programs without data races. Arithmetic on
  indices of type `long` does not overflow.
-/
set_option linter.unusedSectionVars false
namespace LFA.Line
open GK (Pair Access)

/-- The body of the loop (examples/lbm/cell.h:58-128, examples/performance_tests/main.cpp:376-383): `GET_COMP` reads members of the old grid (or of the new one, if `new` is set) at
    an offset which is known at compile time, `SET_COMP` writes to members of the cell of the new grid. What is written, and what is
    accessed at all, may depend on what has been read. -/
inductive Body (V : Type) where
  | done
  | read (new : Bool) (X Y Z : Int) (r k : Nat) (c : V → Body V)
  | write (r k : Nat) (v : V) (c : Body V)

/-- A kernel: the body of the loop, and the range of the z-coordinates (examples/lbm/cudalineupdatefunctorprototype.h:13-15). The indices
    are modified through pointers (`indexOld`, `indexNew`) to those of the caller's accessors. If the accessors are passed by reference
    then this moves the accessors, but if they are passed by value, as in examples/lbm/cell.h:41, then they are copies with an index of
    their own (macros.hpp:159-164, 371-387). -/
structure Kernel (V : Type) where
  byRef : Bool
  body : Body V
  startZ : Int
  endZ : Int

/-- A thread: `global_z`, `*indexOld`, `*indexNew` (examples/lbm/cell.h:43-48), and what is left of the current iteration of the loop. -/
structure Walker (V : Type) where
  z : Int
  i : Int
  j : Int
  code : Option (Body V)

variable {V : Type} [DecidableEq V]

/-- Address of `accessor[coord<X, Y, Z>()].member()[k]` in the buffer (macros.hpp:207-215, detail/macros.hpp:92-125), for an accessor with the
    index `i`. -/
def addr (L : Layout V) (e : Ext) (i X Y Z : Int) (r : Nat) (m : Member V) (k : Nat) : Int :=
  ((accAt e i).shift X Y Z).userRef L r m k

/-- `planeSizeOld` (examples/lbm/cell.h:48). -/
def planeOld (A : Pair) : Int := (A.es.x : Int) * A.es.y

/-- `planeSizeNew` (examples/lbm/cell.h:49): the width is that of the old grid. -/
def planeNew (A : Pair) : Int := (A.es.x : Int) * A.et.y

/-- The beginning of `updateLine` (examples/lbm/cell.h:43-47) for the thread with these `blockIdx` and `threadIdx`. The coordinates are sums of
    `unsigned`s, converted to `long`. -/
def Kernel.start (K : Kernel V) (A : Pair) (b : Dim3) (t : LFA.Thread) : Walker V :=
  let x : Int := ((tidX b t + 2) % 2 ^ 32 : Nat)
  let y : Int := ((tidY b t + 2) % 2 ^ 32 : Nat)
  ⟨K.startZ, genIndex A.es x y K.startZ, genIndex A.et x y K.startZ, none⟩

/-- The indices of the accessors which the body uses. Those of the copies are 0 (examples/lbm/cudalineupdatefunctorprototype.h:10-11). -/
def Kernel.index (K : Kernel V) (t : Walker V) (new : Bool) : Int := if K.byRef then (if new then t.j else t.i) else 0

/-- One step of a thread (examples/lbm/cell.h:57-140): the condition of the loop, an access, or the end of an iteration. A thread which
    has finished waits. A member which does not exist would not compile. -/
def Kernel.step (K : Kernel V) (L : Layout V) (A : Pair) (t : Walker V) (h : Heap V) : Except UB (Walker V × Heap V) :=
  match t.code with
  | none => if t.z < K.endZ then .ok ({ t with code := some K.body }, h) else .ok (t, h)
  | some .done => .ok (⟨t.z + 1, t.i + planeOld A, t.j + planeNew A, none⟩, h)
  | some (.read new X Y Z r k c) =>
    match L[r]?, h.blk (if new then A.idt else A.ids) with
    | some m, some b =>
      match b.read (addr L (if new then A.et else A.es) (K.index t new) X Y Z r m k) m.ty with
      | .ok v => .ok ({ t with code := some (c v) }, h)
      | .error u => .error u
    | _, _ => .error .dangling
  | some (.write r k v c) =>
    match L[r]?, h.blk A.idt with
    | some m, some b =>
      match b.assign (addr L A.et (K.index t true) 0 0 0 r m k) m.ty v with
      | .ok b' => .ok ({ t with code := some c }, h.set A.idt b')
      | .error u => .error u
    | _, _ => .error .dangling

/-- What the next step of a thread accesses. -/
def Kernel.next (K : Kernel V) (L : Layout V) (A : Pair) (t : Walker V) : Option Access :=
  match t.code with
  | some (.read new X Y Z r k _) => (L[r]?).map fun m =>
      ⟨if new then A.idt else A.ids, addr L (if new then A.et else A.es) (K.index t new) X Y Z r m k, m.ty.size, false⟩
  | some (.write r k _ _) => (L[r]?).map fun m => ⟨A.idt, addr L A.et (K.index t true) 0 0 0 r m k, m.ty.size, true⟩
  | _ => none

/-- The thread has finished. -/
def Kernel.over (K : Kernel V) (t : Walker V) : Bool := t.code.isNone && decide (K.endZ ≤ t.z)

/-- Execution in the order of a schedule, which contains the number of a thread for each step. -/
def Kernel.exec (K : Kernel V) (L : Layout V) (A : Pair) : List Nat → (Nat → Walker V) → Heap V → Except UB ((Nat → Walker V) × Heap V)
  | [], T, h => .ok (T, h)
  | i :: sched, T, h =>
    match K.step L A (T i) h with
    | .ok (t, h') => K.exec L A sched (World.upd T i t) h'
    | .error u => .error u

/-- The threads which `update<<<dim_grid, dim_block>>>` starts (examples/lbm/cudalineupdatefunctorprototype.h:6-16, 31). There are no
    others. -/
def Kernel.threads (K : Kernel V) (A : Pair) (g b : Dim3) (i : Nat) : Walker V :=
  match (LFA.threads g b)[i]? with
  | some t => K.start A b t
  | none => ⟨K.endZ, 0, 0, none⟩

/-- `gridOld->callback(gridNew, updater)` (soa_grid.hpp:172-184, examples/lbm/update_lbm_cuda_flat_array.h:43), and the end of the kernel. A null
    pointer is represented by a number which no buffer has. `none`: the threads have not finished yet when the schedule ends. -/
def update (C : Cfg V) (K : Kernel V) (g b : Dim3) (sched : List Nat) (W : World V) (s o : Nat) : Option (Except UB (World V × Out V)) :=
  match W.g s, W.g o with
  | some gs, some go =>
    match gs.dualCallback C go (fun es et h =>
      let A : Pair := ⟨es, et, gs.data.getD h.next, go.data.getD h.next⟩
      match K.exec C.L A sched (K.threads A g b) h with
      | .ok (T, h') => .ok ((List.range (LFA.threads g b).length).all fun i => K.over (T i)) h'
      | .error u => .ub u) W.h with
    | .ok true h => some (.ok (⟨h, W.g⟩, .unit))
    | .ok false _ => none
    | .throw x h => some (.ok (⟨h, W.g⟩, .threw x))
    | .ub u => some (.error u)
  | _, _ => some (.error .dangling)

/-- Time steps (examples/lbm/update_lbm_cuda_flat_array.h:42-45): afterwards the two pointers to the grids are exchanged. Kernels run one
    after the other, the threads of each follow the schedule given for it. An exception ends the loop. -/
def timeSteps (C : Cfg V) (K : Kernel V) (g b : Dim3) : List (List Nat) → World V → Nat → Nat → Option (Except UB (World V × Out V))
  | [], W, _, _ => some (.ok (W, .unit))
  | sched :: scheds, W, s, o =>
    match update C K g b sched W s o with
    | none => none
    | some (.error u) => some (.error u)
    | some (.ok (W', .threw x)) => some (.ok (W', .threw x))
    | some (.ok (W', _)) => timeSteps C K g b scheds W' o s

/-- The loop which doubles `blockWidth` (examples/lbm/util.h:84-86). `n` is the number of iterations after which it is certainly over, as
    `dim` is an `int`. -/
def grow (dim : Nat) : Nat → Nat → Nat
  | 0, w => w
  | n + 1, w => if w ≤ dim then grow dim n (w * 2) else w

/-- `gen_dims` (examples/lbm/util.h:82-93): the width of a block. -/
def blockWidth (dim : Nat) : Nat := min 256 (grow dim 31 1 / 2)

/-- `dimBlock` (examples/lbm/util.h:91). -/
def dimBlock (dim : Nat) : Dim3 := ⟨blockWidth dim, 2, 1⟩

/-- `dimGrid` (examples/lbm/util.h:92). -/
def dimGrid (dim : Nat) : Dim3 := ⟨dim / (dimBlock dim).x, dim / (dimBlock dim).y, 1⟩

/-! ### Loops over rows -/

/-- The body, for accessors with the indices `i` and `j`. -/
def Body.run (L : Layout V) (A : Pair) (i j : Int) : Body V → Heap V → Except UB (Heap V)
  | .done, h => .ok h
  | .read new X Y Z r k c, h =>
    match L[r]?, h.blk (if new then A.idt else A.ids) with
    | some m, some b =>
      match b.read (addr L (if new then A.et else A.es) (if new then j else i) X Y Z r m k) m.ty with
      | .ok v => (c v).run L A i j h
      | .error u => .error u
    | _, _ => .error .dangling
  | .write r k v c, h =>
    match L[r]?, h.blk A.idt with
    | some m, some b =>
      match b.assign (addr L A.et j 0 0 0 r m k) m.ty v with
      | .ok b' => c.run L A i j (h.set A.idt b')
      | .error u => .error u
    | _, _ => .error .dangling

/-- `n` iterations of the loop over a row (examples/performance_tests/main.cpp:366-383): both accessors advance by one. -/
def Body.row (L : Layout V) (A : Pair) (K : Body V) : Nat → Int → Int → Heap V → Except UB (Heap V)
  | 0, _, _, h => .ok h
  | n + 1, i, j, h =>
    match K.run L A i j h with
    | .ok h' => K.row L A n (i + 1) (j + 1) h'
    | .error u => .error u

/-- The loop over a row: both accessors start at `indexStart`, which is computed for the first one, and the loop ends when the index of
    the first one is `indexEnd` or more (examples/performance_tests/main.cpp:363-368). -/
def Body.line (L : Layout V) (A : Pair) (K : Body V) (x0 x1 y z : Int) (h : Heap V) : Except UB (Heap V) :=
  let start := genIndex A.es x0 y z
  K.row L A (genIndex A.es x1 y z - start).toNat start start h

/-- The rows with these coordinates, one after the other (examples/performance_tests/main.cpp:361-362). -/
def Body.sweep (L : Layout V) (A : Pair) (K : Body V) (x0 x1 : Int) : List (Int × Int) → Heap V → Except UB (Heap V)
  | [], h => .ok h
  | (y, z) :: rs, h =>
    match K.line L A x0 x1 y z h with
    | .ok h' => K.sweep L A x0 x1 rs h'
    | .error u => .error u

/-- `gridOld.callback(&gridNew, functor)` (soa_grid.hpp:172-184, examples/performance_tests/main.cpp:358-388, 435). -/
def updateRows (C : Cfg V) (K : Body V) (b : GK.Box) (W : World V) (s o : Nat) : Except UB (World V × Out V) :=
  W.withG s fun g => W.withG o fun g' => W.ofH (fun _ => .unit) (g.dualCallback C g' (fun es et h =>
    match K.sweep C.L ⟨es, et, g.data.getD h.next, g'.data.getD h.next⟩ b.x0 b.x1 b.rows h with
    | .ok h' => .ok () h'
    | .error u => .ub u) W.h)

end LFA.Line
