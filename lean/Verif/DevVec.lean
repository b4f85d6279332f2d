import Verif.DevGrid
import Verif.SoaVector

/-
  soa_vector<T, cuda_allocator<char>, true> (soa_vector.hpp): a vector in the memory of a CUDA device. It is a device grid and a counter.
  As for device grids, each call yields a set of outcomes.
-/
set_option linter.unusedSectionVars false
namespace LFA
namespace Dev
open LFA.World (upd)

/-- All device vectors of a program: vector variable `s` consists of the grid `s + 1` (soa_vector.hpp:189) and `count`
    (soa_vector.hpp:190). Grid 0 is the local variable `new_grid` of `reserve()` (soa_vector.hpp:115). -/
structure VecWorld (V : Type) where
  D : World V
  n : Nat → Option Nat

/-- Initial state. -/
def VecWorld.init {V : Type} : VecWorld V := ⟨World.init, fun _ => none⟩

namespace VecWorld
variable {V : Type} [DecidableEq V] (C : Cfg V)

/-- The result of a member function which returns nothing. -/
def outcome (W : VecWorld V) (q : World V × Out V) : VecWorld V × ArrOut V :=
  match q.2 with
  | .threw x => (⟨q.1, W.n⟩, .threw x)
  | _ => (⟨q.1, W.n⟩, .unit)

/-- `count` of a vector; without an object this is UB. -/
def count (W : VecWorld V) (s : Nat) : ND Nat :=
  match W.n s with
  | none => ND.ub .dangling
  | some n => pure n

/-- `extent_x()` (soa_grid.hpp:383-386) of grid `s`. -/
def extentX (D : World V) (s : Nat) : ND Nat := do
  let g ← obj D s
  match g.ex with
  | none => ND.ub .uninitField
  | some x => pure x

/-- An exception leaves `reserve()`, so `new_grid` is destroyed (soa_vector.hpp:111-125). -/
def unwind (W : VecWorld V) (D : World V) (x : Exc) : ND (VecWorld V × ArrOut V) := do
  let q ← Dev.step C D (.destroy 0)
  pure (⟨q.1, W.n⟩, .threw x)

/-- `reserve(new_count)` (soa_vector.hpp:111-125) of vector `s`.

    `new_grid.load(…, grid.data(), grid.extent_x())` (soa_vector.hpp:123) hands over a pointer to memory of the device as the source of a
    load, which copies it by `cudaMemcpy(…, cudaMemcpyHostToDevice)` (soa_grid.hpp:284-299, cuda_array.hpp:149-152). The CUDA
    documentation says that pointers which do not match the direction of the copy result in undefined behaviour. A copy of zero bytes
    does not access any memory. -/
def reserve (W : VecWorld V) (s m : Nat) : ND (VecWorld V × ArrOut V) := do
  let n ← W.count s
  -- soa_grid<T, ALLOCATOR, USE_CUDA_FUNCTORS> new_grid(new_count, 1, 1);
  let q ← Dev.step C W.D (.new 0 ⟨m, 1, 1⟩)
  match q.2 with
  | .threw x => pure (⟨q.1, W.n⟩, .threw x)
  | _ => do
    -- new_grid.resize(new_grid.extent_x(), 1, 1);
    let x ← extentX q.1 0
    let q ← Dev.step C q.1 (.resize 0 ⟨x, 1, 1⟩)
    match q.2 with
    | .threw x => unwind C W q.1 x
    | _ => do
      -- new_grid.load(iter + 0, iter + 1, grid.data(), grid.extent_x());
      let x ← extentX q.1 (s + 1)
      if x * aggSize C.L = 0 then do
        let q ← Dev.step C q.1 (.load 0 [⟨0, 0, 0, n⟩] (Block.fresh 0) x)
        match q.2 with
        | .threw x => unwind C W q.1 x
        | _ => do
          -- swap(new_grid, grid); ~soa_grid()
          let q ← Dev.step C q.1 (.swap 0 (s + 1))
          let q ← Dev.step C q.1 (.destroy 0)
          pure (⟨q.1, W.n⟩, .unit)
      else ND.ub .oob

/-- Executes one operation (soa_vector.hpp:46-186). Copies and assignments do not compile, as those of device grids. -/
def step (W : VecWorld V) : VecOp V → ND (VecWorld V × ArrOut V)
  -- soa_vector.hpp:46-52
  | .new s n =>
    match W.n s with
    | some _ => ND.ub .lifetime
    | none => do
      let q ← Dev.step C W.D (.new (s + 1) ⟨n, 1, 1⟩)
      match q.2 with
      | .threw x => pure (⟨q.1, W.n⟩, .threw x)
      | _ => pure (⟨q.1, upd W.n s (some n)⟩, .unit)
  -- soa_vector.hpp:54-60; if broadcast() throws then the grid is destroyed
  | .newFill s n c =>
    match W.n s with
    | some _ => ND.ub .lifetime
    | none => do
      let q ← Dev.step C W.D (.new (s + 1) ⟨n, 1, 1⟩)
      match q.2 with
      | .threw x => pure (⟨q.1, W.n⟩, .threw x)
      | _ => do
        let q ← Dev.step C q.1 (.broadcast (s + 1) 0 0 0 c n)
        match q.2 with
        | .threw x => do
          let q ← Dev.step C q.1 (.destroy (s + 1))
          pure (⟨q.1, W.n⟩, .threw x)
        | _ => pure (⟨q.1, upd W.n s (some n)⟩, .unit)
  | .destroy s => do
    let _ ← W.count s
    let q ← Dev.step C W.D (.destroy (s + 1))
    pure (⟨q.1, upd W.n s none⟩, .unit)
  -- soa_vector.hpp:67-72
  | .set s i c => do
    let _ ← W.count s
    let q ← Dev.step C W.D (.set (s + 1) i 0 0 [c])
    pure (W.outcome q)
  -- soa_vector.hpp:79-84
  | .get s i t => do
    let _ ← W.count s
    let q ← Dev.step C W.D (.get (s + 1) i 0 0 [t])
    match q.2 with
    | .cells l => pure (⟨q.1, W.n⟩, .cells l)
    | _ => pure (W.outcome q)
  -- soa_vector.hpp:141-151
  | .push s c => do
    let n ← W.count s
    let x ← extentX W.D (s + 1)
    let r ← if n = x then reserve C W s (grow n) else pure (W, .unit)
    match r.2 with
    | .threw x => pure (r.1, .threw x)
    | _ => do
      let n ← r.1.count s
      let q ← Dev.step C r.1.D (.set (s + 1) n 0 0 [c])
      match q.2 with
      | .threw x => pure (⟨q.1, r.1.n⟩, .threw x)
      | _ => pure (⟨q.1, upd r.1.n s (some (n + 1))⟩, .unit)
  -- soa_vector.hpp:153-160; `--count` wraps around at zero; `td` is `T()`
  | .pop s td => do
    let n ← W.count s
    let n := if n = 0 then 18446744073709551615 else n - 1
    let q ← Dev.step C W.D (.set (s + 1) n 0 0 [td])
    pure (outcome ⟨W.D, upd W.n s (some n)⟩ q)
  -- soa_vector.hpp:134-139
  | .clear s => do
    let _ ← W.count s
    pure (⟨W.D, upd W.n s (some 0)⟩, .unit)
  -- soa_vector.hpp:100-109
  | .resize s m => do
    let _ ← W.count s
    let g ← obj W.D (s + 1)
    let r ← if m > g.dim.x then reserve C W s m else pure (W, .unit)
    match r.2 with
    | .threw x => pure (r.1, .threw x)
    | _ => pure (⟨r.1.D, upd r.1.n s (some m)⟩, .unit)
  | .reserve s m => reserve C W s m
  -- soa_vector.hpp:86-98
  | .size s => do
    let n ← W.count s
    pure (W, .nat n)
  | .empty s => do
    let n ← W.count s
    pure (W, .nat (if n = 0 then 1 else 0))
  -- soa_vector.hpp:127-132
  | .capacity s => do
    let _ ← W.count s
    let g ← obj W.D (s + 1)
    pure (W, .nat g.dim.x)
  -- soa_vector.hpp:172-186, with a functor written by the user, which launches a kernel with a single thread
  | .poke s x X r k v => do
    let _ ← W.count s
    let q ← Dev.step C W.D (.poke (s + 1) x 0 0 X 0 0 r k v)
    pure (W.outcome q)
  | .peek s x X r k => do
    let _ ← W.count s
    let q ← Dev.step C W.D (.peek (s + 1) x 0 0 X 0 0 r k)
    match q.2 with
    | .val (some v) => pure (⟨q.1, W.n⟩, .val v)
    | _ => pure (W.outcome q)
  | .copy _ _ => ND.ub .lifetime
  | .assign _ _ => ND.ub .lifetime

end VecWorld
end Dev
end LFA
