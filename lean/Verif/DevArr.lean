import Verif.Share
import Verif.Adaptive
import Verif.Cuda
import Verif.DevGrid

/-
  soa_arrays which are copied to a CUDA device and back by their bytes, and kernels which use them there. soa_array promises "PoD-style copy
  semantics (i.e. it doesn't use pointers)", to "simplify (and accelerate) handling with MPI and CUDA" (soa_array.hpp:44-46);
  test/soa_array_cuda_test.cu:58-118 shows the usage which is modelled.

  Simplifications: `cudaMalloc` succeeds, and `cudaMemcpy` copies a whole soa_array from or to one of the same type. Arrays which kernels
  create themselves are not modelled. Kernels have finished before the next call, which waits for them. Threads of one kernel see each other's
  accesses in the order of a schedule; kernels with races are beyond the specification.
-/
set_option linter.unusedSectionVars false
namespace LFA
namespace DevArr
open LFA.Share (Loc)
variable {V : Type} [DecidableEq V] (L : Layout V)

/-- Arrays of the host, arrays in device memory, and the capacities of the arrays for which device memory has been allocated. -/
structure World (V : Type) where
  host : ArrWorld V
  dev : ArrWorld V
  buf : Nat → Option Nat

/-- Initial state. -/
def World.init : World V := ⟨.init, .init, fun _ => none⟩

/-! ### soa_array in device code -/

/-- `operator<<`, `push_back` (soa_array.hpp:160-173, 246-251) if `__CUDA_ARCH__` is defined: no check. -/
def push (a : SArr V) (c : Cell V) : Except UB (SArr V) :=
  ((SArr.accSz a.N a.n).setCell L c a.data).map fun b => ⟨a.N, (a.n + 1) % 2 ^ 64, b⟩

/-- `pop_back` (soa_array.hpp:233-244) if `__CUDA_ARCH__` is defined: no check. -/
def pop (a : SArr V) : SArr V := ⟨a.N, SArr.pred64 a.n, a.data⟩

/-- Calls in device code (soa_array.hpp:118-181, 204-258). Copies other than the implicitly defined ones, and `load`, contain `throw` and do not
    compile for the device (soa_array.hpp:183-196, 283-294), `byte_size` and `swap` are functions of the host (soa_array.hpp:265-268, 302-308):
    here these end with an error. So do constructors and destructors, see above. -/
def call (w : ArrWorld V) : ArrOp V → Except UB (ArrWorld V × ArrOut V)
  | .push s c => w.withA s fun a => (push L a c).map fun a' => (⟨ArrWorld.upd w.a s (some a'), w.gone⟩, .unit)
  | .pop s => w.withA s fun a => .ok (⟨ArrWorld.upd w.a s (some (pop a)), w.gone⟩, .unit)
  | .assign s t true => w.withA s fun a => w.withA t fun o => if a.N = o.N then w.step L (.assign s t true) else .error .terminate
  | .set s i c => w.step L (.set s i c)
  | .get s i t => w.step L (.get s i t)
  | .poke s i r k v => w.step L (.poke s i r k v)
  | .peek s i r k => w.step L (.peek s i r k)
  | .clear s => w.step L (.clear s)
  | .back s t => w.step L (.back s t)
  | .size s => w.step L (.size s)
  | .capacity s => w.step L (.capacity s)
  | .iter s t => w.step L (.iter s t)
  | _ => .error .terminate

/-- A kernel of many threads, in any order of their steps, which ends when all `n` threads have returned (test/soa_array_cuda_test.cu:72-83). -/
def runThreads (n : Nat) (T : Nat → Share.Prog Loc V Unit) (w : ArrWorld V) : ND (ArrWorld V) := fun r =>
  ∃ sched, match Share.Arr.exec L w (fun i => if i < n then T i else .ret ()) sched with
    | .error u => r = .error u
    | .ok (w', T') => (∀ i, T' i = .ret ()) ∧ r = .ok w'

/-- Number of threads of `kernel<<<g, b>>>(…)`; a launch which exceeds the limits starts none, nor does one without threads. -/
def threadsOf (g b : Nat) : Nat := if Launchable ⟨g, 1, 1⟩ ⟨b, 1, 1⟩ then g * b else 0

/-- `size()` of the arrays on the device. Threads of kernels with many threads access elements, but change no sizes. -/
def sizes (w : ArrWorld V) (t : Nat) : Option Nat := (w.a t).map fun a => a.n

/-! ### Programs of the host -/

/-- Calls of the host: member functions of its own arrays, `cudaMalloc(&t, sizeof(soa_array<T, N>))`, `cudaFree(t)`, `cudaMemcpy` from host array
    `s` to device array `t`, back, and between device arrays, `kernel<<<1, 1>>>(…)` and `kernel<<<g, b>>>(…)` (test/soa_array_cuda_test.cu:84-118).
    The threads of a kernel are given by the sizes of the arrays, and their index `blockDim.x * blockIdx.x + threadIdx.x`. -/
inductive Op (V : Type) where
  | host (op : ArrOp V)
  | malloc (t N : Nat)
  | free (t : Nat)
  | toDev (t s : Nat)
  | toHost (s t : Nat)
  | copyDev (t t' : Nat)
  | one (p : Prog (ArrOp V) (ArrOut V) Unit)
  | many (g b : Nat) (T : (Nat → Option Nat) → Nat → Share.Prog Loc V Unit)

/-- The bytes of an array, at another place. -/
def memcpy (o : SArr V) : SArr V := ⟨o.N, o.n, o.data.bytes⟩

/-- Executes one call (test/soa_array_cuda_test.cu:84-118). Device memory of another size than the array is too small, or left over: an error here. -/
def step (D : World V) : Op V → ND (World V × ArrOut V)
  | .host op => ND.lift ((D.host.step L op).map fun q => ({ D with host := q.1 }, q.2))
  | .malloc t N =>
    match D.buf t with
    | some _ => ND.ub .lifetime
    | none => pure (⟨D.host, ⟨ArrWorld.upd D.dev.a t none, D.dev.gone⟩, ArrWorld.upd D.buf t (some N)⟩, .unit)
  | .free t =>
    match D.buf t with
    | none => ND.ub .badFree
    | some _ => pure (⟨D.host, ⟨ArrWorld.upd D.dev.a t none, D.dev.gone⟩, ArrWorld.upd D.buf t none⟩, .unit)
  | .toDev t s =>
    match D.buf t, D.host.a s with
    | some N, some o => if N = o.N then pure ({ D with dev := ⟨ArrWorld.upd D.dev.a t (some (memcpy o)), D.dev.gone⟩ }, .unit) else ND.ub .oob
    | _, _ => ND.ub .dangling
  | .toHost s t =>
    match D.host.a s, D.dev.a t with
    | some a, some o => if a.N = o.N then pure ({ D with host := ⟨ArrWorld.upd D.host.a s (some (memcpy o)), D.host.gone⟩ }, .unit) else ND.ub .oob
    | _, _ => ND.ub .dangling
  | .copyDev t t' =>
    match D.buf t, D.dev.a t' with
    | some N, some o => if N = o.N then pure ({ D with dev := ⟨ArrWorld.upd D.dev.a t (some (memcpy o)), D.dev.gone⟩ }, .unit) else ND.ub .oob
    | _, _ => ND.ub .dangling
  | .one p => ND.lift ((p.exec (call L) D.dev).map fun q => ({ D with dev := q.1 }, .unit))
  | .many g b T => runThreads L (threadsOf g b) (T (sizes D.dev)) D.dev >>= fun w => pure ({ D with dev := w }, .unit)

end DevArr
end LFA
