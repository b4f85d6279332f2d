import Verif.Functors
import Verif.MemberPtr
import Mathlib.Data.List.Perm.Basic
import Mathlib.Data.List.Nodup
import Mathlib.Data.List.ProdSigma

/-
  The CUDA versions of the functors: launch configuration, kernels, and their execution under an arbitrary schedule.

  A thread is the list of the operations it applies to (device) memory, one per struct member. The threads of a launch run
  concurrently: any interleaving of their operations may happen.
-/
set_option linter.unusedSectionVars false
namespace LFA

/-! ### Launches -/

/-- CUDA's `dim3`. -/
structure Dim3 where
  x : Nat
  y : Nat
  z : Nat
deriving DecidableEq, Repr

/-- Conversion of an `int` to `unsigned`. -/
def toU32 (i : Int) : Nat := (i % 2 ^ 32).toNat

/-- `divide_and_round_up` (detail/generate_cuda_launch_config.hpp:44-52). -/
def divRoundUp (i dividend : Int) : Int :=
  let ret := i.tdiv dividend
  if i.tmod dividend ≠ 0 then ret + 1 else ret

/-- `generate_cuda_launch_config::operator()` (detail/generate_cuda_launch_config.hpp:30-41): dimensions of the grid and of the
    blocks. -/
def launchConfig (x y z : Int) : Dim3 × Dim3 :=
  let block : Dim3 := if y ≥ 4 then ⟨128, 4, 1⟩ else ⟨512, 1, 1⟩
  (⟨toU32 (divRoundUp x block.x), toU32 (divRoundUp y block.y), toU32 (divRoundUp z block.z)⟩, block)

/-- One dimension of `blockIdx` and `threadIdx` for all threads. -/
def tids (grid block : Nat) : List (Nat × Nat) := (List.range grid).flatMap fun b => (List.range block).map fun t => (b, t)

/-- Limits of the hardware (compute capability 3.0 and later). -/
def Launchable (g b : Dim3) : Bool :=
  decide (g.x ≤ 2 ^ 31 - 1) && decide (g.y ≤ 65535) && decide (g.z ≤ 65535) && decide (b.x * b.y * b.z ≤ 1024)

/-- A thread: `blockIdx` and `threadIdx`. -/
structure Thread where
  bi : Dim3
  ti : Dim3

/-- The threads which `kernel<<<grid, block>>>` starts. A launch beyond the limits fails; none of the functors checks for that. -/
def threads (g b : Dim3) : List Thread :=
  if Launchable g b then
    (tids g.z b.z).flatMap fun z => (tids g.y b.y).flatMap fun y => (tids g.x b.x).map fun x =>
      ⟨⟨x.1, y.1, z.1⟩, ⟨x.2, y.2, z.2⟩⟩
  else []

/-- `blockDim.x * blockIdx.x + threadIdx.x` (`unsigned` arithmetic), e.g. detail/construct_functor.hpp:66. -/
def tidX (b : Dim3) (t : Thread) : Nat := (b.x * t.bi.x + t.ti.x) % 2 ^ 32
/-- Same for y (detail/construct_functor.hpp:67). -/
def tidY (b : Dim3) (t : Thread) : Nat := (b.y * t.bi.y + t.ti.y) % 2 ^ 32
/-- Same for z (detail/construct_functor.hpp:68). -/
def tidZ (b : Dim3) (t : Thread) : Nat := (b.z * t.bi.z + t.ti.z) % 2 ^ 32

/-- `Interleave ts l`: the list `l` is a merge of the lists `ts`, each of which is kept in order. -/
inductive Interleave {α : Type} : List (List α) → List α → Prop
  | done {ts : List (List α)} : (∀ t ∈ ts, t = []) → Interleave ts []
  | step {ts : List (List α)} {i : Nat} {a : α} {rest sched : List α} : ts[i]? = some (a :: rest) →
      Interleave (ts.set i rest) sched → Interleave ts (a :: sched)

/-! ### Operations of threads -/
section
variable {V : Type} [DecidableEq V]

/-- Operations on single objects in device memory. -/
inductive MemOp (V : Type) where
  /-- `*a = v` -/
  | assign (a : Int) (ty : Ty) (v : V)
  /-- `new (a) T(v)` -/
  | construct (a : Int) (ty : Ty) (v : V)
  /-- `a->~T()` -/
  | destroy (a : Int) (ty : Ty)
  /-- `*a = *sa`, where `sa` points into a buffer which the kernel does not write to -/
  | copy (sa : Int) (a : Int) (ty : Ty)
  /-- access behind the end of the array of structs -/
  | oob

/-- Execution of an operation; `src` is the buffer to read from. -/
def MemOp.exec (src : Block V) : MemOp V → Block V → Except UB (Block V)
  | .assign a ty v, b => b.assign a ty v
  | .construct a ty v, b => b.construct a ty v
  | .destroy a ty, b => b.destroy a ty
  | .copy sa a ty, b => (src.read sa ty).bind fun v => b.assign a ty v
  | .oob, _ => .error .oob

/-- Sequential execution. -/
def runL {σ ω : Type} (exec : ω → σ → Except UB σ) : List ω → σ → Except UB σ
  | [], s => .ok s
  | o :: os, s => (exec o s).bind (runL exec os)

/-- All objects of a struct: member number, member, array element. -/
def memKeys (L : Layout V) : List (Nat × Member V × Nat) :=
  L.zipIdx.flatMap fun p => (List.range p.1.elems).map fun k => (p.2, p.1, k)

/-- `construct_members()` of `soa_accessor_light` (macros.hpp:694-702, detail/macros.hpp:275-293). -/
def constructOps (L : Layout V) (A : Acc) : List (MemOp V) :=
  (memKeys L).map fun q => .construct (match q.2.1.arity with | none => A.member L q.1 q.2.1 0 | some _ => A.arrayRef L q.1 q.2.1 q.2.2)
    q.2.1.ty q.2.1.dflt

/-- `destroy_members()` of `soa_accessor_light` (macros.hpp:704-712, detail/macros.hpp:295-314). -/
def destroyOps (L : Layout V) (A : Acc) : List (MemOp V) :=
  (memKeys L).map fun q => .destroy (match q.2.1.arity with | none => A.member L q.1 q.2.1 0 | some _ => A.arrayRef L q.1 q.2.1 q.2.2)
    q.2.1.ty

/-- `operator<<` of `soa_accessor_light` (macros.hpp:635-640, detail/macros.hpp:140-159). -/
def setOps (L : Layout V) (A : Acc) (cell : Cell V) : List (MemOp V) :=
  (memKeys L).map fun q => .assign (match q.2.1.arity with
      | none => A.member L q.1 q.2.1 0
      | some _ => A.member L q.1 q.2.1 0 + (A.ext.prod : Int) * q.2.2 * q.2.1.ty.size) q.2.1.ty (cell q.1 q.2.2)

/-- `load(source, 1, offset, stride)` of `soa_accessor_light` (macros.hpp:659-671, detail/macros.hpp:183-214). -/
def loadOps (L : Layout V) (A : Acc) (off stride : Nat) : List (MemOp V) :=
  (memKeys L).map fun q => match q.2.1.arity with
    | none => .copy ((offset L q.1 : Int) * stride + ((off : Int) + (0 : Nat)) * q.2.1.ty.size)
        (A.member L q.1 q.2.1 0 + ((0 : Nat) : Int) * q.2.1.ty.size) q.2.1.ty
    | some _ => .copy ((offset L q.1 : Int) * stride + ((stride : Int) * q.2.2 + off + (0 : Nat)) * q.2.1.ty.size)
        (A.arrayRef L q.1 q.2.1 0 + ((A.ext.prod : Int) * q.2.2 + (0 : Nat)) * q.2.1.ty.size) q.2.1.ty

/-- `save(target, 1, offset, stride)` of `const_soa_accessor_light` (macros.hpp:893-905, detail/macros.hpp:217-248). -/
def saveOps (L : Layout V) (A : Acc) (off stride : Nat) : List (MemOp V) :=
  (memKeys L).map fun q => match q.2.1.arity with
    | none => .copy (A.member L q.1 q.2.1 0 + ((0 : Nat) : Int) * q.2.1.ty.size)
        ((offset L q.1 : Int) * stride + ((off : Int) + (0 : Nat)) * q.2.1.ty.size) q.2.1.ty
    | some _ => .copy (A.arrayRef L q.1 q.2.1 0 + ((A.ext.prod : Int) * q.2.2 + (0 : Nat)) * q.2.1.ty.size)
        ((offset L q.1 : Int) * stride + ((stride : Int) * q.2.2 + off + (0 : Nat)) * q.2.1.ty.size) q.2.1.ty

/-! ### Kernels -/

/-- `construct_kernel` (detail/construct_functor.hpp:62-87). -/
def constructKernel (L : Layout V) (d e : Ext) (bd : Dim3) (t : Thread) : List (MemOp V) :=
  if tidX bd t ≥ d.x then []
  else if tidY bd t ≥ d.y then []
  else if tidZ bd t ≥ d.z then []
  else constructOps L (accAt e (genIndex e (tidX bd t) (tidY bd t) (tidZ bd t)))

/-- `destroy_kernel` (detail/destroy_functor.hpp:63-88). -/
def destroyKernel (L : Layout V) (d e : Ext) (bd : Dim3) (t : Thread) : List (MemOp V) :=
  if tidX bd t ≥ d.x then []
  else if tidY bd t ≥ d.y then []
  else if tidZ bd t ≥ d.z then []
  else destroyOps L (accAt e (genIndex e (tidX bd t) (tidY bd t) (tidZ bd t)))

/-- `set_kernel` (detail/set_instance_functor.hpp:78-93). -/
def setKernel (L : Layout V) (e : Ext) (stride : Nat) (cells : List (Cell V)) (count x y z : Nat) (bd : Dim3) (t : Thread) :
    List (MemOp V) :=
  let offset := tidX bd t * stride
  if offset ≥ count then []
  else match cells[offset]? with
    | none => [.oob]
    | some cell => setOps L (accAt e (genIndex e ((x + offset : Nat)) y z)) cell

/-- `load_kernel` (detail/load_functor.hpp:80-95). -/
def loadKernel (L : Layout V) (e : Ext) (count stride x y z off : Nat) (bd : Dim3) (t : Thread) : List (MemOp V) :=
  if tidX bd t ≥ count then []
  else loadOps L (accAt e (genIndex e x y z + tidX bd t)) (off + tidX bd t) stride

/-- `save_kernel` (detail/save_functor.hpp:75-90). -/
def saveKernel (L : Layout V) (e : Ext) (count stride x y z off : Nat) (bd : Dim3) (t : Thread) : List (MemOp V) :=
  if tidX bd t ≥ count then []
  else saveOps L (accAt e (genIndex e x y z + tidX bd t)) (off + tidX bd t) stride

/-- An operation of `get_kernel`: `target[j].member[k] = *sa`. -/
structure GetOp where
  j : Nat
  r : Nat
  k : Nat
  sa : Int
  ty : Ty

/-- Execution: the source is not written to. -/
def GetOp.exec (src : Block V) (o : GetOp) (target : List (Cell V)) : Except UB (List (Cell V)) :=
  match target[o.j]? with
  | none => .error .oob
  | some cell => (src.read o.sa o.ty).map fun v => target.set o.j (cell.set o.r o.k v)

/-- `operator>>` of `const_soa_accessor_light` (macros.hpp:876-884, detail/macros.hpp:161-181). -/
def getOps (L : Layout V) (A : Acc) (j : Nat) : List GetOp :=
  (memKeys L).map fun q => ⟨j, q.1, q.2.2, match q.2.1.arity with
      | none => A.member L q.1 q.2.1 0
      | some _ => A.member L q.1 q.2.1 0 + (A.ext.prod : Int) * q.2.2 * q.2.1.ty.size, q.2.1.ty⟩

/-- `get_kernel` (detail/get_instance_functor.hpp:79-94). -/
def getKernel (L : Layout V) (e : Ext) (count x y z : Nat) (bd : Dim3) (t : Thread) : List GetOp :=
  if tidX bd t ≥ count then []
  else getOps L (accAt e (genIndex e ((x + tidX bd t : Nat)) y z)) (tidX bd t)

/-! ### Functors: launches -/

/-- A kernel launch takes the device memory from `s` to `s'` for some schedule. -/
def Launch {σ ω : Type} (exec : ω → σ → Except UB σ) (g b : Dim3) (kernel : Dim3 → Thread → List ω) (s : σ) (r : Except UB σ) : Prop :=
  ∃ sched, Interleave ((threads g b).map (kernel b)) sched ∧ r = runL exec sched s

/-- `construct_functor<CELL, true>::operator()` (detail/construct_functor.hpp:105-113). The dimensions are converted to `int`. -/
def constructCuda (L : Layout V) (d e : Ext) (b : Block V) (r : Except UB (Block V)) : Prop :=
  let c := launchConfig (toInt32 d.x) (toInt32 d.y) (toInt32 d.z)
  Launch (MemOp.exec b) c.1 c.2 (constructKernel L d e) b r

/-- `destroy_functor<CELL, true>::operator()` (detail/destroy_functor.hpp:106-114). -/
def destroyCuda (L : Layout V) (d e : Ext) (b : Block V) (r : Except UB (Block V)) : Prop :=
  let c := launchConfig (toInt32 d.x) (toInt32 d.y) (toInt32 d.z)
  Launch (MemOp.exec b) c.1 c.2 (destroyKernel L d e) b r

/-- `set_instance_functor<CELL, SOURCE_STRIDE, true>::operator()` (detail/set_instance_functor.hpp:128-142). -/
def setCuda (L : Layout V) (e : Ext) (stride : Nat) (cells : List (Cell V)) (x y z count : Nat) (b : Block V)
    (r : Except UB (Block V)) : Prop :=
  let c := launchConfig (toInt32 count) 1 1
  Launch (MemOp.exec b) c.1 c.2 (setKernel L e stride cells count x y z) b r

/-- `get_instance_functor<CELL, true>::operator()` (detail/get_instance_functor.hpp:129-143). -/
def getCuda (L : Layout V) (e : Ext) (src : Block V) (x y z count : Nat) (target : List (Cell V)) (r : Except UB (List (Cell V))) :
    Prop :=
  let c := launchConfig (toInt32 count) 1 1
  Launch (GetOp.exec src) c.1 c.2 (getKernel L e count x y z) target r

/-- `load_functor<CELL, ITERATOR, true>::operator()` (detail/load_functor.hpp:115-137): one launch per streak, which are executed
    one after another (they are in the same stream). -/
def loadCuda (L : Layout V) (e : Ext) (src : Block V) (count : Nat) : List Streak → Nat → Block V → Except UB (Block V) → Prop
  | [], _, b, r => r = .ok b
  | s :: ss, off, b, r =>
    let c := launchConfig (toInt32 s.len) 1 1
    ∃ r1, Launch (MemOp.exec src) c.1 c.2 (loadKernel L e s.len count s.x s.y s.z off) b r1 ∧
      match r1 with
      | .error u => r = .error u
      | .ok b1 => loadCuda L e src count ss (off + s.len) b1 r

/-- `save_functor<CELL, ITERATOR, true>::operator()` (detail/save_functor.hpp:110-132). -/
def saveCuda (L : Layout V) (e : Ext) (src : Block V) (count : Nat) : List Streak → Nat → Block V → Except UB (Block V) → Prop
  | [], _, b, r => r = .ok b
  | s :: ss, off, b, r =>
    let c := launchConfig (toInt32 s.len) 1 1
    ∃ r1, Launch (MemOp.exec src) c.1 c.2 (saveKernel L e s.len count s.x s.y s.z off) b r1 ∧
      match r1 with
      | .error u => r = .error u
      | .ok b1 => saveCuda L e src count ss (off + s.len) b1 r

end
end LFA
