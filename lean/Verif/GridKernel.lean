import Verif.Threads
import Verif.Props.Kernel

/-
  Vectorised kernels on grids: functors which `callback` runs on two grids and which update members with `short_vec`s in a loop from the
  loop peeler, as in examples/jacobi/main.cpp:137-210 and examples/gauss/main.cpp:150-250.
-/
set_option linter.unusedSectionVars false
namespace LFA.GK
open SV (Expr Entry FEnv Mem Writes)

/-- Values of a floating point type: each bit pattern is a value. -/
structure Bits (w : Nat) (V : Type) where
  val : BitVec w → V
  bits : V → Option (BitVec w)
  bits_val : ∀ x, bits (val x) = some x

/-- What `accessor[coord<X, Y, Z>()].member()[k]` refers to, relative to the accessor's index. -/
structure Pos where
  (X Y Z : Int)
  (r k : Nat)

/-- Flavours of memory accesses: `short_vec(&member)` and `&member << vec`; `load_aligned` and `store_aligned`;
    `streaming_short_vec(&member)` and `vec.store(&member)` (streaming_short_vec.hpp:49-79). For a `streaming_short_vec`, `&member << vec`
    is an ordinary store: no argument can be deduced for the parameter `int ARITY` of `operator<<` (streaming_short_vec.hpp:86-91), whose
    counterpart in the class template has the type `std::size_t`. -/
inductive Mode where
  | plain
  | aligned
  | streaming
deriving DecidableEq

/-- The functor: variable `j` of the code is the member `src j` of the old grid's accessor, or of the new grid's if `new j` is set; the
    result goes to `dst` of the new grid's accessor. -/
structure Stencil (w : Nat) where
  code : Expr w
  new : Nat → Bool
  src : Nat → Pos
  dst : Pos
  mode : Mode

variable {V : Type} [DecidableEq V] {w : Nat}

/-- What is seen through a pointer to an element of a buffer at address `base`. Elements of `w` bits are numbered by address. -/
def view (B : Bits w V) (ty : Ty) (base : Nat) (b : Block V) : Mem w := fun q =>
  match b.read (q * (w / 8 : Nat) - base) ty with
  | .ok v => B.bits v
  | .error _ => none

/-- Stores through pointers into a buffer at address `base`. -/
def put (B : Bits w V) (ty : Ty) (base : Nat) : Writes w → Block V → Except UB (Block V)
  | [], b => .ok b
  | (q, x) :: ws, b => (b.assign (q * (w / 8 : Nat) - base) ty (B.val x)).bind (put B ty base ws)

/-- Address of `accessor[coord<X, Y, Z>()].member()[k]`, in bytes (macros.hpp:207-215, detail/macros.hpp:92-125). The buffer is at address
    `base`. Simplification: `accessor += ARITY` (macros.hpp:193-198) after `accessor.index() = gen_index(x, y, z)` is the index of the
    current x-coordinate. -/
def addr (L : Layout V) (base : Nat) (e : Ext) (x y z : Int) (p : Pos) (m : Member V) : Int :=
  base + ((accAt e (genIndex e x y z)).shift p.X p.Y p.Z).userRef L p.r m p.k

/-- `addr` as number of the element. `none`: the member is not of the vector's type (does not compile), or the pointer is misaligned. -/
def elem (L : Layout V) (base : Nat) (e : Ext) (x y z : Int) (p : Pos) (m : Member V) : Option Int :=
  if m.ty.size = w / 8 ∧ ((w / 8 : Nat) : Int) ∣ addr L base e x y z p m then some (addr L base e x y z p m / (w / 8 : Nat)) else none

/-- Loads of a mode. -/
def Mode.load (M : Mode) (I : SV.Impl w) (E : FEnv) (m : Mem w) (q : Int) : Option I.V :=
  match M with
  | .plain | .streaming => I.ofPtr E m q
  | .aligned => I.loadA E m (I.bcast E 0) q

/-- Stores of a mode. -/
def Mode.store (M : Mode) (I : SV.Impl w) (E : FEnv) (v : I.V) (q : Int) : Option (Writes w) :=
  match M with
  | .plain => I.shl E v q
  | .aligned => I.storeA E v q
  | .streaming => I.streamingStore E v q

/-- What the functor is given: members, number representation, addresses of the buffers, arithmetic of the target. -/
structure Env (w : Nat) (V : Type) where
  L : Layout V
  B : Bits w V
  base : Nat → Nat
  E : FEnv

/-- The two accessors: extents and buffers. -/
structure Pair where
  (es et : Ext)
  (ids idt : Nat)

/-- Value of variable `j`, for the cells `x`, …, `x + ARITY - 1`. -/
def load (T : Env w V) (K : Stencil w) (A : Pair) (e : Entry w) (h : Heap V) (x y z : Int) (j : Nat) : Option e.impl.V :=
  let id := if K.new j then A.idt else A.ids
  let ext := if K.new j then A.et else A.es
  match T.L[(K.src j).r]?, h.blk id with
  | some m, some b => (elem (w := w) T.L (T.base id) ext x y z (K.src j) m).bind fun q =>
      K.mode.load e.impl T.E (view T.B m.ty (T.base id) b) q
  | _, _ => none

/-- One iteration of the loop (examples/jacobi/main.cpp:161-175): loads, arithmetic, store. `none`: undefined behaviour. -/
def body (T : Env w V) (K : Stencil w) (A : Pair) (e : Entry w) (x y z : Int) (h : Heap V) : Option (Heap V) :=
  (K.code.vec e.impl e.cmp T.E (load T K A e h x y z)).bind fun v =>
    match T.L[K.dst.r]?, h.blk A.idt with
    | some m, some b => (elem (w := w) T.L (T.base A.idt) A.et x y z K.dst m).bind fun q =>
        (K.mode.store e.impl T.E v q).bind fun ws =>
          match put T.B m.ty (T.base A.idt) ws b with
          | .ok b' => some (h.set A.idt b')
          | .error _ => none
    | _, _ => none

/-- A call of the body: arity and coordinates. -/
structure At where
  a : Nat
  (x y z : Int)

/-- Calls of the body, one after the other. Those with an arity other than the vector's use `short_vec<T, 1>`. -/
def calls (T : Env w V) (K : Stencil w) (A : Pair) (e1 e : Entry w) : List At → Heap V → Option (Heap V)
  | [], h => some h
  | c :: cs, h => (body T K A (if c.a = e.impl.N then e else e1) c.x c.y c.z h).bind (calls T K A e1 e cs)

/-- `LIBFLATARRAY_LOOP_PEELER_TEMPLATE` (loop_peeler.hpp:75-94) for the cells `x0`, …, `x1 - 1` of one row: the calls. -/
def rowCalls (t : Peel.CTy) (N : Nat) (x0 x1 y z : Int) : Option (List At) :=
  (Peel.peel t N x0 x1).map fun q => q.1.map fun c => ⟨c.1, c.2, y, z⟩

/-- The ranges of the functor's loops. -/
structure Box where
  (x0 x1 y0 y1 z0 z1 : Int)

/-- The rows, in the order of the loops (examples/jacobi/main.cpp:187-188): `y` is the inner loop. -/
def Box.rows (b : Box) : List (Int × Int) :=
  (Peel.iota b.z0 (b.z1 - b.z0).toNat).flatMap fun z => (Peel.iota b.y0 (b.y1 - b.y0).toNat).map fun y => (y, z)

/-- `operator()` of the functor (examples/jacobi/main.cpp:179-204), executed by one thread. -/
def sweep (T : Env w V) (K : Stencil w) (A : Pair) (t : Peel.CTy) (e1 e : Entry w) (b : Box) : List (Int × Int) → Heap V → Option (Heap V)
  | [], h => some h
  | (y, z) :: rs, h => (rowCalls t e.impl.N b.x0 b.x1 y z).bind fun cs =>
      (calls T K A e1 e cs h).bind (sweep T K A t e1 e b rs)

/-- `grid_old.callback(&grid_new, functor)` (soa_grid.hpp:172-184, examples/jacobi/main.cpp:251). A null pointer is represented by a number
    which no buffer has. Which kind of undefined behaviour occurs is not distinguished. -/
def update (C : Cfg V) (B : Bits w V) (base : Nat → Nat) (E : FEnv) (K : Stencil w) (t : Peel.CTy) (e1 e : Entry w) (b : Box)
    (W : World V) (s o : Nat) : Except UB (World V × Out V) :=
  W.withG s fun g => W.withG o fun g' => W.ofH (fun _ => .unit) (g.dualCallback C g' (fun es et h =>
    match sweep ⟨C.L, B, base, E⟩ K ⟨es, et, g.data.getD h.next, g'.data.getD h.next⟩ t e1 e b b.rows h with
    | some h' => .ok () h'
    | none => .ub .oob) W.h)

/-- `n` time steps: `grid_old.callback(&grid_new, functor); swap(grid_old, grid_new)` (examples/jacobi/main.cpp:250-254). An exception ends
    the loop. -/
def timeSteps (C : Cfg V) (B : Bits w V) (base : Nat → Nat) (E : FEnv) (K : Stencil w) (t : Peel.CTy) (e1 e : Entry w) (b : Box)
    (s o : Nat) : Nat → World V → Except UB (World V × Out V)
  | 0, W => .ok (W, .unit)
  | n + 1, W =>
    match update C B base E K t e1 e b W s o with
    | .error u => .error u
    | .ok (W', .threw x) => .ok (W', .threw x)
    | .ok (W', _) =>
      match W'.step C (.swap s o) with
      | .error u => .error u
      | .ok (W'', _) => timeSteps C B base E K t e1 e b s o n W''

end LFA.GK
