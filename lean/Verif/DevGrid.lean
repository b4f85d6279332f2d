import Verif.World
import Verif.CudaArray

/-
  soa_grid<T, cuda_allocator, true> (soa_grid.hpp) with its staging buffers (detail/staging_buffer.hpp:64-101, which forward to a
  cuda_array): a grid in the memory of a CUDA device. Each call yields a set of outcomes, since the threads of the kernels may run in
  any order, `cudaMalloc` may return any unused address, and fresh device memory may contain anything.

  Simplifications: `cudaMalloc` does not fail, the memory of the grids and of the two kinds of staging buffers is kept apart, and
  kernel launches are synchronous (the copies and the deallocations which follow a launch do wait for it).
-/
set_option linter.unusedSectionVars false
namespace LFA

/-- The possible outcomes of a computation. -/
def ND (α : Type) := Except UB α → Prop

namespace ND

/-- Undefined behaviour. -/
def ub {α : Type} (u : UB) : ND α := fun r => r = .error u

instance : Monad ND where
  pure a := fun r => r = .ok a
  bind m f := fun r => ∃ r1, m r1 ∧ match r1 with
    | .error u => r = .error u
    | .ok a => f a r

/-- A computation without any choice. -/
def lift {α : Type} (x : Except UB α) : ND α := fun r => r = x

end ND

namespace Dev

/-- All device grids of a program and their memory (`w`), and their staging buffers: those for structs (`cs`) and those for raw bytes
    (`rs`). The buffers of grid variable `s` are named `s + 1`. -/
structure World (V : Type) where
  w : LFA.World V
  cs : CA.World (Cell V)
  rs : CA.World (MByte V)

/-- Initial state. -/
def World.init {V : Type} : World V := ⟨LFA.World.init, CA.World.init, CA.World.init⟩

section
variable {α : Type}

/-- A call to a member function of a staging buffer (cuda_array.hpp). -/
def call (c : CA.World α) (op : CA.Op α) : ND (CA.World α × List (Option α)) := fun r =>
  ∃ ans, CA.AnsOK c op ans ∧ r = CA.step c op ans

/-- The memory behind `data()` (cuda_array.hpp:159-167): its address and contents. -/
def mem (c : CA.World α) (i : Nat) : ND (Nat × List (Option α)) :=
  match c.arr i with
  | none => ND.ub .lifetime
  | some x =>
    match c.heap x.ptr with
    | none => ND.ub .lifetime
    | some l => pure (x.ptr, l)

/-- A kernel leaves `l` in the memory at `p`. -/
def put (c : CA.World α) (p : Nat) (l : List α) : CA.World α := ⟨c.arr, CA.upd c.heap p (some (l.map some))⟩

/-- `std::swap` of two staging buffers: via copy constructor and assignment, the temporary is named 0. There is no move constructor
    (cuda_array.hpp:56-123). -/
def swapBuf (c : CA.World α) (i j : Nat) : ND (CA.World α) := do
  let q ← call c (.copy 0 i)
  let q ← call q.1 (.assign i j)
  let q ← call q.1 (.assign j 0)
  let q ← call q.1 (.del 0)
  pure q.1

end

variable {V : Type} [DecidableEq V] (C : Cfg V)

/-- Structs found in device memory: what has never been written to may have any value. -/
def structs (l : List (Option (Cell V))) : ND (List (Cell V)) := fun r =>
  ∃ t : List (Cell V), t.length = l.length ∧ (∀ (i : Nat) (v : Cell V), l[i]? = some (some v) → t[i]? = some v) ∧ r = .ok t

/-- A byte of an object which has been copied by `cudaMemcpy`. The copy of a non-trivial object is not an object. -/
def copied (b : MByte V) : MByte V := if b.nonTriv then .undef else b

/-- Raw bytes found in device memory. -/
def bytes (l : List (Option (MByte V))) : Block V :=
  ⟨l.length, fun i => match l[i]? with
    | some (some b) => copied b
    | _ => .undef⟩

/-- The bytes of a block. -/
def blockBytes (b : Block V) (n : Nat) : List (MByte V) := (List.range n).map b.get

/-- Structs and members are transferred byte by byte, and members in the staging buffers are never constructed: members have to be
    trivially copyable. -/
def requireTrivial : ND Unit := if C.L.all (fun m => m.ty.triv) then pure () else ND.ub .lifetime

/-- `callback(functor)` for functors which modify the buffer (soa_grid.hpp:160-170). -/
def callbackMut (g : Grid) (f : Ext → Block V → ND (Block V)) (h : Heap V) : ND (Except Exc (Heap V)) :=
  match selectSizes C.tr g.dim with
  | .error x => pure (.error x)
  | .ok e =>
    match g.data with
    | none => do
      let _ ← f e (Block.fresh 0)
      pure (.ok h)
    | some id =>
      match h.blk id with
      | none => ND.ub .dangling
      | some b => do
        let b' ← f e b
        pure (.ok (h.set id b'))

/-- `callback(functor)` for functors which read the buffer (soa_grid.hpp:160-170). -/
def callbackRead {α : Type} (g : Grid) (f : Ext → Block V → ND α) (h : Heap V) : ND (Except Exc α) :=
  match selectSizes C.tr g.dim with
  | .error x => pure (.error x)
  | .ok e =>
    match g.data with
    | none => do
      let a ← f e (Block.fresh 0)
      pure (.ok a)
    | some id =>
      match h.blk id with
      | none => ND.ub .dangling
      | some b => do
        let a ← f e b
        pure (.ok a)

/-- `destroy_and_deallocate()` (soa_grid.hpp:458-466) with `destroy_functor<T, true>`. -/
def destroyAndDeallocate (g : Grid) (h : Heap V) : ND (Except Exc (Heap V)) :=
  match g.data with
  | none => pure (.ok h)
  | some id => do
    match ← callbackMut C g (fun e => destroyCuda C.L g.dim e) h with
    | .error x => pure (.error x)
    | .ok h =>
      match g.bs with
      | none => ND.ub .uninitField
      | some n => do
        let h ← ND.lift (h.dealloc id n)
        pure (.ok h)

/-- `resize(new_dim_x, new_dim_y, new_dim_z)` (soa_grid.hpp:134-158) with `construct_functor<T, true>` (453-456). -/
def resize (g : Grid) (d : Ext) (h : Heap V) : ND (Option Exc × Grid × Heap V) :=
  if g.dim.x = d.x ∧ g.dim.y = d.y ∧ g.dim.z = d.z then pure (none, g, h)
  else do
    match ← destroyAndDeallocate C g h with
    | .error x => pure (some x, g, h)
    | .ok h =>
      let g1 : Grid := { g with dim := d }
      match selectSizes C.tr d with
      | .error x => pure (some x, g1, h)
      | .ok e =>
        let n := byteSizeOf C.L e
        let q := h.alloc n
        let g2 : Grid := { g1 with ex := some e.x, ey := some e.y, ez := some e.z, bs := some n, data := some q.1 }
        match ← callbackMut C g2 (fun e => constructCuda C.L g2.dim e) q.2 with
        | .error x => pure (some x, g2, q.2)
        | .ok h => pure (none, g2, h)

/-- A grid variable; without an object this is UB. -/
def obj (D : World V) (s : Nat) : ND Grid :=
  match D.w.g s with
  | none => ND.ub .dangling
  | some g => pure g

/-- Outcome of a call which modifies the memory of a grid. -/
def done (D : World V) (r : Except Exc (Heap V)) : World V × Out V :=
  match r with
  | .ok h => ({ D with w := ⟨h, D.w.g⟩ }, .unit)
  | .error x => (D, .threw x)

/-- Outcome of a call which does not access any memory on the device: the code is that of the host. -/
def hostStep (D : World V) (op : Op V) : ND (World V × Out V) := do
  let q ← ND.lift (D.w.step C op)
  pure ({ D with w := q.1 }, q.2)

/-- Executes one operation (soa_grid.hpp:87-396).

    `poke` and `peek`: a functor written by the user, which launches a kernel with a single thread. Copy construction and assignment
    do not compile for device grids, as `copy_in` passes `this` where a pointer to a `soa_grid<T>` on the host is expected
    (soa_grid.hpp:172-184, 468-471). -/
def step (D : World V) : Op V → ND (World V × Out V)
  -- soa_grid.hpp:87-94: first the members, then resize(); if that throws then the members are destroyed again
  | .new s d =>
    match D.w.g s with
    | some _ => ND.ub .lifetime
    | none => do
      let q ← call D.cs (.new (s + 1) 0)
      let p ← call D.rs (.new (s + 1) 0)
      let r ← resize C ⟨⟨0, 0, 0⟩, none, none, none, none, none⟩ d D.w.h
      match r.1 with
      | none => pure (⟨⟨r.2.2, World.upd D.w.g s (some r.2.1)⟩, q.1, p.1⟩, .unit)
      | some x => do
        let p ← call p.1 (.del (s + 1))
        let q ← call q.1 (.del (s + 1))
        pure (⟨⟨r.2.2, D.w.g⟩, q.1, p.1⟩, .threw x)
  -- soa_grid.hpp:107-110: first destroy_and_deallocate(), then the members
  | .destroy s => do
    let g ← obj D s
    match ← destroyAndDeallocate C g D.w.h with
    | .error _ => ND.ub .terminate
    | .ok h => do
      let p ← call D.rs (.del (s + 1))
      let q ← call D.cs (.del (s + 1))
      pure (⟨⟨h, World.upd D.w.g s none⟩, q.1, p.1⟩, .unit)
  | .resize s d => do
    let g ← obj D s
    let r ← resize C g d D.w.h
    pure ({ D with w := ⟨r.2.2, World.upd D.w.g s (some r.2.1)⟩ }, match r.1 with
      | none => .unit
      | some x => .threw x)
  -- soa_grid.hpp:119-132
  | .swap s t => do
    let a ← obj D s
    let b ← obj D t
    let p := Grid.swap a b
    let cs ← swapBuf D.cs (s + 1) (t + 1)
    let rs ← swapBuf D.rs (s + 1) (t + 1)
    pure (⟨⟨D.w.h, World.upd (World.upd D.w.g s (some p.1)) t (some p.2)⟩, cs, rs⟩, .unit)
  -- soa_grid.hpp:186-211
  | .set s x y z cells => do
    let g ← obj D s
    requireTrivial C
    let q ← call D.cs (.resize (s + 1) cells.length)
    let q ← call q.1 (.load (s + 1) cells)
    let m ← mem q.1 (s + 1)
    let t ← structs m.2
    let r ← callbackMut C g (fun e => setCuda C.L e 1 t x y z cells.length) D.w.h
    pure (done { D with cs := q.1 } r)
  -- soa_grid.hpp:246-260
  | .broadcast s x y z cell n => do
    let g ← obj D s
    requireTrivial C
    let q ← call D.cs (.resize (s + 1) 1)
    let q ← call q.1 (.load (s + 1) [cell])
    let m ← mem q.1 (s + 1)
    let t ← structs m.2
    let r ← callbackMut C g (fun e => setCuda C.L e 0 t x y z n) D.w.h
    pure (done { D with cs := q.1 } r)
  -- soa_grid.hpp:213-244; `prep` does nothing (detail/staging_buffer.hpp:92-95); `save` copies whole structs to the host
  | .get s x y z target => do
    let g ← obj D s
    requireTrivial C
    let q ← call D.cs (.resize (s + 1) target.length)
    let m ← mem q.1 (s + 1)
    let t ← structs m.2
    match ← callbackRead C g (fun e b => getCuda C.L e b x y z target.length t) D.w.h with
    | .error x => pure ({ D with cs := q.1 }, .threw x)
    | .ok t => do
      let q ← call (put q.1 m.1 t) (.save (s + 1))
      match q.2.mapM id with
      | none => ND.ub .indet
      | some l => pure ({ D with cs := q.1 }, .cells l)
  -- soa_grid.hpp:262-299
  | .load s ss src n => do
    let g ← obj D s
    requireTrivial C
    let size := n * aggSize C.L
    if src.size < size then ND.ub .oob
    else do
      let p ← call D.rs (.resize (s + 1) size)
      let p ← call p.1 (.load (s + 1) (blockBytes src size))
      let m ← mem p.1 (s + 1)
      let r ← callbackMut C g (fun e => loadCuda C.L e (bytes m.2) n ss 0) D.w.h
      pure (done { D with rs := p.1 } r)
  -- soa_grid.hpp:301-346
  | .save s ss tgt n => do
    let g ← obj D s
    requireTrivial C
    let size := n * aggSize C.L
    let p ← call D.rs (.resize (s + 1) size)
    let m ← mem p.1 (s + 1)
    match ← callbackRead C g (fun e b => saveCuda C.L e b n ss 0 (bytes m.2)) D.w.h with
    | .error x => pure ({ D with rs := p.1 }, .threw x)
    | .ok b =>
      if tgt.size < size then ND.ub .oob
      else do
        let p ← call (put p.1 m.1 (blockBytes b m.2.length)) (.save (s + 1))
        pure ({ D with rs := p.1 }, .raw ⟨tgt.size, fun i => match p.2[i]? with
          | some (some b) => b
          | some none => .undef
          | none => tgt.get i⟩)
  | .copy _ _ => ND.ub .lifetime
  | .assign _ _ => ND.ub .lifetime
  | op => hostStep C D op

/-- Executes a sequence of operations and collects what the caller observes. -/
def run (D : World V) : List (Op V) → ND (World V × List (Out V))
  | [] => pure (D, [])
  | op :: ops => do
    let q ← step C D op
    let q' ← run q.1 ops
    pure (q'.1, q.2 :: q'.2)

end Dev
end LFA
