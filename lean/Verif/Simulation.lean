import Verif.BufferKernel

/-
  Whole functors on one grid of particles: vectorised loops over all particles, searches for interacting pairs, and scalar code which
  accesses members through pointers, in any order, e.g. `Simulate` (examples/smoothed_particle_hydrodynamics/main.cpp:208-287).
-/
set_option linter.unusedSectionVars false
namespace LFA.GK
open SV (Expr Entry FEnv FOps Mem Writes Cmp Rel)

variable {V : Type} [DecidableEq V] {w : Nat}

/-! ### Vectorised loops over all particles -/

/-- `&particles.member() << expression`, where the expression depends on members of the same particle (kernels.hpp:73, 179-180). -/
structure Assign (w : Nat) where
  code : Expr w
  src : Nat → Nat × Nat
  dst : Nat × Nat

/-- The statement as a functor on one grid. -/
def Assign.stencil (a : Assign w) : Stencil w :=
  ⟨a.code, fun _ => false, fun v => ⟨0, 0, 0, (a.src v).1, (a.src v).2⟩, ⟨0, 0, 0, a.dst.1, a.dst.2⟩, .plain⟩

/-- The body of the loop for particles `x`, …, `x + ARITY - 1` (kernels.hpp:72-74, 178-181). -/
def fillBody (T : Env w V) (A : One) (as : List (Assign w)) (e : Entry w) (x : Int) : Heap V → Option (Heap V) :=
  as.foldlM fun h (a : Assign w) => body T a.stencil A.pair e x 0 0 h

/-- Calls of the body. Those with an arity other than the vector's use `short_vec<T, 1>`. -/
def fillCalls (T : Env w V) (A : One) (as : List (Assign w)) (e1 e : Entry w) : List (Nat × Int) → Heap V → Option (Heap V)
  | [], h => some h
  | c :: cs, h => (fillBody T A as (if c.1 = e.impl.N then e else e1) c.2 h).bind (fillCalls T A as e1 e cs)

/-- The loop over `n` particles (kernels.hpp:67-75, 171-182). -/
def fill (T : Env w V) (A : One) (as : List (Assign w)) (t : Counters) (e1 e : Entry w) (n : Nat) (h : Heap V) : Option (Heap V) :=
  (Peel.peelFn t.t1 t.t2 t.t3 e.impl.N 0 n).bind fun q => fillCalls T A as e1 e q.1 h

/-! ### Scalar code -/

/-- `(&particles.member())[x]` as the number of an element, for an accessor with index 0: a pointer to the first particle's member is
    passed to functions which use it as an array (main.cpp:259-283, kernels.c). -/
def arrayElem (T : Env w V) (A : One) (x : Int) (r k : Nat) (m : Member V) : Option Int :=
  (elem (w := w) T.L (T.base A.id) A.e 0 0 0 ⟨0, 0, 0, r, k⟩ m).map (· + x)

/-- Reads `(&particles.member())[x]`. -/
def arrayGet (T : Env w V) (A : One) (x : Int) (r k : Nat) (h : Heap V) : Option (BitVec w) :=
  match T.L[r]?, h.blk A.id with
  | some m, some b => (arrayElem T A x r k m).bind (view T.B m.ty (T.base A.id) b)
  | _, _ => none

/-- Writes `(&particles.member())[x]`. -/
def arraySet (T : Env w V) (A : One) (x : Int) (r k : Nat) (v : BitVec w) (h : Heap V) : Option (Heap V) :=
  match T.L[r]?, h.blk A.id with
  | some m, some b => (arrayElem T A x r k m).bind fun q =>
      match put T.B m.ty (T.base A.id) [(q, v)] b with
      | .ok b' => some (h.set A.id b')
      | .error _ => none
  | _, _ => none

/-! ### Functors -/

/-- A loop which uses vectors. -/
inductive Phase (w : Nat) (V : Type) where
  /-- A loop over `n` particles, e.g. kernels.hpp:67-75. -/
  | fill (as : List (Assign w)) (t : Counters) (n : Nat)
  /-- Interactions of `n` particles, e.g. kernels.hpp:77-122. -/
  | pairs (K : Pairs w) (us : List (Upd w)) (t : Counters) (n : Nat)
  /-- Interactions of `n` particles which are collected in a soa_array, e.g. kernels.hpp:186-240. -/
  | buffered (K : Pairs w) (U : Buffer w V) (c0 : Cell V) (t : Counters) (n : Nat)

/-- The code of a functor: reads and writes through pointers to members, output, and vectorised loops. What follows may depend on all
    values which have been read, so this includes branches, local variables and loops (main.cpp:232-287, kernels.c:27-50, 104-183). -/
inductive Code (w : Nat) (V : Type) where
  | done
  | read (x : Int) (r k : Nat) (c : BitVec w → Code w V)
  | write (x : Int) (r k : Nat) (v : BitVec w) (c : Code w V)
  | emit (v : BitVec w) (c : Code w V)
  | loop (p : Phase w V) (c : Code w V)

/-- A vectorised loop. -/
def Phase.exec (T : Env w V) (F : FOps w) (A : One) (e1 e : Entry w) (h : Heap V) : Phase w V → Option (Heap V)
  | .fill as t n => GK.fill T A as t e1 e n h
  | .pairs K us t n => K.direct T F us t e1 e n A h
  | .buffered K U c0 t n => U.functor T F K c0 t e1 e n A h

/-- Execution of a functor: the memory, and what has been output. `none`: undefined behaviour. -/
def Code.exec (T : Env w V) (F : FOps w) (A : One) (e1 e : Entry w) : Code w V → Heap V → Option (Heap V × List (BitVec w))
  | .done, h => some (h, [])
  | .read x r k c, h => (arrayGet T A x r k h).bind fun v => (c v).exec T F A e1 e h
  | .write x r k v c, h => (arraySet T A x r k v h).bind (c.exec T F A e1 e)
  | .emit v c, h => (c.exec T F A e1 e h).map fun q => (q.1, v :: q.2)
  | .loop p c, h => (p.exec T F A e1 e h).bind (c.exec T F A e1 e)

/-- `particles.callback(functor)` (main.cpp:315, soa_grid.hpp:160-164): the world, the result of the call and the output. A null pointer
    is represented by a number which no buffer has. Which kind of undefined behaviour occurs is not distinguished. -/
def simulate (C : Cfg V) (B : Bits w V) (base : Nat → Nat) (E : FEnv) (F : FOps w) (c : Code w V) (e1 e : Entry w) (W : World V) (s : Nat) :
    Except UB (World V × Out V × List (BitVec w)) :=
  match W.g s with
  | none => .error .lifetime
  | some g =>
    match selectSizes C.tr g.dim with
    | .error x => .ok (W, .threw x, [])
    | .ok ext =>
      match c.exec ⟨C.L, B, base, E⟩ F ⟨ext, g.data.getD W.h.next⟩ e1 e W.h with
      | some q => .ok (⟨q.1, W.g⟩, .unit, q.2)
      | none => .error .oob

end LFA.GK
