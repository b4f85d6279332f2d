import Verif.Functors

/-
  soa_grid (soa_grid.hpp) with host functors, on top of a heap of buffers.
-/
set_option linter.unusedSectionVars false
namespace LFA

/-- The dynamic memory: live buffers by identity, and the final contents of all freed buffers (history variable). -/
structure Heap (V : Type) where
  next : Nat
  blk : Nat → Option (Block V)
  freed : List (Block V)

namespace Heap
variable {V : Type}

def empty : Heap V := ⟨0, fun _ => none, []⟩

/-- `ALLOCATOR().allocate(n)`; the allocator itself is treated in `Verif.AlignedAlloc`. Running out of memory
    (`std::bad_alloc`) is not modelled. -/
def alloc (h : Heap V) (n : Nat) : Nat × Heap V :=
  (h.next, ⟨h.next + 1, fun i => if i = h.next then some (Block.fresh n) else h.blk i, h.freed⟩)

/-- Replace the contents of buffer `id`. -/
def set (h : Heap V) (id : Nat) (b : Block V) : Heap V :=
  { h with blk := fun i => if i = id then some b else h.blk i }

/-- `ALLOCATOR().deallocate(p, n)`: the buffer must be live and `n` must be the allocated size. -/
def dealloc (h : Heap V) (id n : Nat) : Except UB (Heap V) :=
  match h.blk id with
  | none => .error .dangling
  | some b =>
    if b.size = n then .ok ⟨h.next, fun i => if i = id then none else h.blk i, h.freed ++ [b]⟩
    else .error .badFree

end Heap

/-- Compile time parameters of `soa_grid<T, aligned_allocator<char, 4096>, false>`: members of `T`, its size traits and
    whether `has_asymmetric_dual_callback` is set (api_traits.hpp:263-305). -/
structure Cfg (V : Type) where
  L : Layout V
  tr : Traits
  asym : Bool

/-- Member variables of `soa_grid` (soa_grid.hpp:385-395). `none` for extents and byte size: never initialised.
    `data = none`: null. The staging buffers are pass-through for host functors (detail/staging_buffer.hpp:25-60). -/
structure Grid where
  dim : Ext
  ex : Option Nat
  ey : Option Nat
  ez : Option Nat
  bs : Option Nat
  data : Option Nat

/-- State of a member function: `*this` and the heap. -/
abbrev GS (V : Type) := Grid × Heap V

section
variable {V : Type} [DecidableEq V] (C : Cfg V)

/-- A functor modifies the buffer behind the pointer `data`. Through a null pointer every access is out of bounds. -/
def onBuffer (data : Option Nat) (f : Block V → Except UB (Block V)) (h : Heap V) : Res (Heap V) Unit :=
  match data with
  | none =>
    match f (Block.fresh 0) with
    | .ok _ => .ok () h
    | .error u => .ub u
  | some id =>
    match h.blk id with
    | none => .ub .dangling
    | some b =>
      match f b with
      | .ok b' => .ok () (h.set id b')
      | .error u => .ub u

/-- `callback(functor)` for a functor which modifies the buffer (soa_grid.hpp:160-170): the extents are selected from the
    dimensions, then the functor runs on `my_data`. -/
def Grid.callbackMut (g : Grid) (f : Ext → Block V → Except UB (Block V)) (h : Heap V) : Res (Heap V) Unit :=
  match selectSizes C.tr g.dim with
  | .error e => .throw e h
  | .ok e => onBuffer g.data (f e) h

/-- `callback(functor)` for a functor which only reads the buffer and produces a value (soa_grid.hpp:160-170). -/
def Grid.callbackRead {α : Type} (g : Grid) (f : Ext → Block V → Except UB α) (h : Heap V) : Res (Heap V) α :=
  match selectSizes C.tr g.dim with
  | .error e => .throw e h
  | .ok e =>
    match g.data with
    | none =>
      match f e (Block.fresh 0) with
      | .ok a => .ok a h
      | .error u => .ub u
    | some id =>
      match h.blk id with
      | none => .ub .dangling
      | some b =>
        match f e b with
        | .ok a => .ok a h
        | .error u => .ub u

/-- Attach `*this` to the outcome of a callback. -/
def Res.withGrid {α : Type} (g : Grid) : Res (Heap V) α → Res (GS V) α
  | .ok a h => .ok a (g, h)
  | .throw e h => .throw e (g, h)
  | .ub u => .ub u

/-- `init()` (soa_grid.hpp:453-456). -/
def Grid.init (g : Grid) (h : Heap V) : Res (Heap V) Unit :=
  g.callbackMut C (fun e => constructFunctor C.L g.dim e) h

/-- `destroy_and_deallocate()` (soa_grid.hpp:458-466). -/
def Grid.destroyAndDeallocate (g : Grid) (h : Heap V) : Res (Heap V) Unit :=
  match g.data with
  | none => .ok () h
  | some id =>
    (g.callbackMut C (fun e => destroyFunctor C.L g.dim e) h).bind fun _ h =>
      match g.bs with
      | none => .ub .uninitField
      | some n => Res.ofExcept (h.dealloc id n)

/-- `resize(new_dim_x, new_dim_y, new_dim_z)` (soa_grid.hpp:134-158). -/
def Grid.resize (g : Grid) (d : Ext) (h : Heap V) : Res (GS V) Unit :=
  if g.dim.x = d.x ∧ g.dim.y = d.y ∧ g.dim.z = d.z then .ok () (g, h)
  else
    (Res.withGrid g (g.destroyAndDeallocate C h)).bind fun _ (_, h) =>
      let g1 : Grid := { g with dim := d }
      -- callback(set_byte_size_functor(...)): does not touch the buffer
      match selectSizes C.tr d with
      | .error e => .throw e (g1, h)
      | .ok e =>
        let n := byteSizeOf C.L e
        let (id, h) := h.alloc n
        let g2 : Grid := { g1 with ex := some e.x, ey := some e.y, ez := some e.z, bs := some n, data := some id }
        Res.withGrid g2 (g2.init C h)

/-- `soa_grid(dim_x, dim_y, dim_z)` (soa_grid.hpp:87-94). -/
def Grid.new (d : Ext) (h : Heap V) : Res (GS V) Unit :=
  Grid.resize C ⟨⟨0, 0, 0⟩, none, none, none, none, none⟩ d h

/-- Block read by a copying functor: `*this`' own buffer if both grids share it, else the (unchanging) source buffer. -/
def srcBlock (h : Heap V) (src tgt : Option Nat) : Block V → Block V :=
  if src.isSome ∧ src = tgt then id
  else fun _ => match src with
    | none => Block.fresh 0
    | some id => (h.blk id).getD (Block.fresh 0)

/-- `this->callback(&other, functor)` → `dual_callback` (soa_grid.hpp:172-184, 411-451); the functor receives the extents of
    the accessors for `*this` and for `other`.
    Symmetric: dimensions have to match (`assert_same_grid_sizes`, 473-480), then one selection of extents is used for both
    accessors (detail/dual_callback_helper.hpp:60-124). Asymmetric: each grid selects its own (17-58). -/
def Grid.dualCallback {α : Type} (g other : Grid) (f : Ext → Ext → Heap V → Res (Heap V) α) (h : Heap V) :
    Res (Heap V) α :=
  if C.asym then
    match selectSizes C.tr g.dim with
    | .error e => .throw e h
    | .ok e1 =>
      match selectSizes C.tr other.dim with
      | .error e => .throw e h
      | .ok e2 => f e1 e2 h
  else if g.dim.x ≠ other.dim.x ∨ g.dim.y ≠ other.dim.y ∨ g.dim.z ≠ other.dim.z then
    .throw (.invalidArgument "grid dimensions of both grids must match") h
  else
    match selectSizes C.tr g.dim with
    | .error e => .throw e h
    | .ok e => f e e h

/-- `copy_in(other)` (soa_grid.hpp:468-471): `other.callback(this, copy_functor)`. -/
def Grid.copyIn (g other : Grid) (h : Heap V) : Res (GS V) Unit :=
  Res.withGrid g (other.dualCallback C g (fun es et h =>
    match other.data.map h.blk with
    | some none => .ub .dangling
    | _ => onBuffer g.data (copyFunctor C.L g.dim es et (srcBlock h other.data g.data)) h) h)

/-- `soa_grid(const soa_grid& other)` (soa_grid.hpp:96-105); the extents are not initialised. -/
def Grid.copyCtor (other : Grid) (h : Heap V) : Res (GS V) Unit :=
  match other.bs with
  | none => .ub .uninitField
  | some n =>
    let (id, h) := h.alloc n
    let g : Grid := ⟨other.dim, none, none, none, some n, some id⟩
    (Res.withGrid g (g.init C h)).bind fun _ (g, h) => g.copyIn C other h

/-- `operator=(const soa_grid& other)` (soa_grid.hpp:112-117). -/
def Grid.assign (g other : Grid) (h : Heap V) : Res (GS V) Unit :=
  (g.resize C other.dim h).bind fun _ (g, h) => g.copyIn C other h

/-- `~soa_grid()` (soa_grid.hpp:107-110). An exception leaving a destructor terminates the program. -/
def Grid.dtor (g : Grid) (h : Heap V) : Res (Heap V) Unit :=
  match g.destroyAndDeallocate C h with
  | .throw _ _ => .ub .terminate
  | r => r

/-- `std::swap(a.my_dim_x, b.my_dim_x)` on a pair of grids. -/
def swapDimX (p : Grid × Grid) : Grid × Grid :=
  ({ p.1 with dim := { p.1.dim with x := p.2.dim.x } }, { p.2 with dim := { p.2.dim with x := p.1.dim.x } })

/-- `std::swap(a.my_extent_x, b.my_extent_x)` on a pair of grids. -/
def swapExtX (p : Grid × Grid) : Grid × Grid := ({ p.1 with ex := p.2.ex }, { p.2 with ex := p.1.ex })

/-- `swap(other)` (soa_grid.hpp:119-132), statement by statement: `my_dim_x` and `my_extent_x` are swapped three times each,
    the y and z members never. -/
def Grid.swap (a b : Grid) : Grid × Grid :=
  let p := swapDimX (a, b)
  let p := swapDimX p
  let p := swapDimX p
  let p := swapExtX p
  let p := swapExtX p
  let p := swapExtX p
  let p : Grid × Grid := ({ p.1 with bs := p.2.bs }, { p.2 with bs := p.1.bs })
  ({ p.1 with data := p.2.data }, { p.2 with data := p.1.data })

/-- `set(x, y, z, cells, count)` (soa_grid.hpp:200-211); `set(x, y, z, cell)` (186-198) is the case of a one-element array. -/
def Grid.set (g : Grid) (x y z : Nat) (cells : List (Cell V)) (count : Nat) (h : Heap V) : Res (Heap V) Unit :=
  g.callbackMut C (fun e => setFunctor C.L e 1 cells x y z count) h

/-- `broadcast(x, y, z, cell, count)` (soa_grid.hpp:246-260): `SOURCE_STRIDE` is 0. -/
def Grid.broadcast (g : Grid) (x y z : Nat) (cell : Cell V) (count : Nat) (h : Heap V) : Res (Heap V) Unit :=
  g.callbackMut C (fun e => setFunctor C.L e 0 [cell] x y z count) h

/-- `get(x, y, z, cells, count)` (soa_grid.hpp:232-244); `get(x, y, z)` (213-230) uses a one-element array. -/
def Grid.get (g : Grid) (x y z : Nat) (target : List (Cell V)) (count : Nat) (h : Heap V) :
    Res (Heap V) (List (Cell V)) :=
  g.callbackRead C (fun e b => getFunctor C.L e b x y z count target) h

/-- `load(begin, end, source, count)` (soa_grid.hpp:284-299); `load(x, y, z, source, count)` (262-282) uses one streak. -/
def Grid.load (g : Grid) (ss : List Streak) (src : Block V) (count : Nat) (h : Heap V) : Res (Heap V) Unit :=
  g.callbackMut C (fun e => loadFunctor C.L e src count ss 0) h

/-- `save(begin, end, target, count)` (soa_grid.hpp:325-346); `save(x, y, z, target, count)` (301-323) uses one streak. -/
def Grid.save (g : Grid) (ss : List Streak) (tgt : Block V) (count : Nat) (h : Heap V) : Res (Heap V) (Block V) :=
  g.callbackRead C (fun e b => saveFunctor C.L e b count ss 0 tgt) h

/-- Address of a member through an accessor as user code writes it: `accessor.m()`, or `accessor.m()[k]` for array members. -/
def Acc.userRef (L : Layout V) (A : Acc) (r : Nat) (m : Member V) (k : Nat) : Int :=
  match m.arity with
  | none => A.member L r m 0
  | some _ => A.arrayRef L r m k

/-- User functor run by `callback`: `accessor.index() = gen_index(x, y, z); accessor[coord<X, Y, Z>()].m()[k] = v`
    (macros.hpp:207-215, detail/macros.hpp:92-125). -/
def pokeFunctor (L : Layout V) (e : Ext) (x y z X Y Z : Int) (r k : Nat) (v : V) (b : Block V) : Except UB (Block V) :=
  match L[r]? with
  | none => .ok b -- does not compile
  | some m => b.assign (((accAt e (genIndex e x y z)).shift X Y Z).userRef L r m k) m.ty v

/-- User functor run by `callback`: reads `accessor[coord<X, Y, Z>()].m()[k]`. -/
def peekFunctor (L : Layout V) (e : Ext) (x y z X Y Z : Int) (r k : Nat) (b : Block V) : Except UB (Option V) :=
  match L[r]? with
  | none => .ok none -- does not compile
  | some m => (b.read (((accAt e (genIndex e x y z)).shift X Y Z).userRef L r m k) m.ty).map some

end
end LFA
