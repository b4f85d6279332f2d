import Verif.GridKernel
import Verif.LoopPeelerFn

/-
  Interactions of pairs of particles in a one-dimensional grid: for each particle a peeled loop over the particles behind it computes
  vectors, `any()` tells whether one of the lanes interacts, and scalar code which uses `get()` processes those lanes which do. This is the
  scheme of compute_density_lfa and compute_accel_lfa (examples/smoothed_particle_hydrodynamics/kernels.hpp:61-123 and 154-241).
-/
set_option linter.unusedSectionVars false
namespace LFA.GK
open SV (Expr Entry FEnv FOps Mem Writes Cmp Rel)

/-- A member of one of the two particles: of `particles_i` if `own` is set, else of `particles_j`. -/
structure Src where
  own : Bool
  (r k : Nat)

/-- What the vectorised part computes: `test` is compared to `thr`, `vals` are further vectors. Variables are members of the particles
    (`overlap > 0` in kernels.hpp:102-107; `dist_squared < h_squared`, `delta_x` and `delta_y` in kernels.hpp:209-213). -/
structure Pairs (w : Nat) where
  test : Expr w
  rel : Rel
  thr : BitVec w
  vals : List (Expr w)
  src : Nat → Src

/-- Extents and buffer of the grid on which the functor runs. -/
structure One where
  e : Ext
  id : Nat

variable {V : Type} [DecidableEq V] {w : Nat}

/-- The accessor as both accessors of a functor with two grids. -/
def One.pair (A : One) : Pair := ⟨A.e, A.e, A.id, A.id⟩

/-- The pointers from which variables are loaded: `FLOAT(&particles_j.member())`, as those of other functors. -/
def Pairs.loads (K : Pairs w) : Stencil w :=
  ⟨K.test, fun _ => false, fun v => ⟨0, 0, 0, (K.src v).r, (K.src v).k⟩, ⟨0, 0, 0, 0, 0⟩, .plain⟩

/-- `accessor.member()` as a number, for an accessor with index `x` (e.g. kernels.hpp:87). -/
def fetch (T : Env w V) (A : One) (h : Heap V) (x : Int) (r k : Nat) : Option (BitVec w) :=
  match T.L[r]?, h.blk A.id with
  | some m, some b => (elem (w := w) T.L (T.base A.id) A.e x 0 0 ⟨0, 0, 0, r, k⟩ m).bind (view T.B m.ty (T.base A.id) b)
  | _, _ => none

/-- `accessor.member() = v` (e.g. kernels.hpp:112). -/
def store (T : Env w V) (A : One) (x : Int) (r k : Nat) (v : BitVec w) (h : Heap V) : Option (Heap V) :=
  match T.L[r]?, h.blk A.id with
  | some m, some b => (elem (w := w) T.L (T.base A.id) A.e x 0 0 ⟨0, 0, 0, r, k⟩ m).bind fun q =>
      match put T.B m.ty (T.base A.id) [(q, v)] b with
      | .ok b' => some (h.set A.id b')
      | .error _ => none
  | _, _ => none

/-- What is done for an interaction of particles `i` and `j`, given the lanes of `vals`, to the memory and to further variables of the
    functor. `none`: undefined behaviour, or an exception. -/
abbrev Act (w : Nat) (V X : Type) := Int → Int → List (BitVec w) → Heap V × X → Option (Heap V × X)

variable {X : Type}

/-- Vectors in the loop (kernels.hpp:102-105): members of `particles_i` have been read into `regs`, those of `particles_j` are loaded. -/
def Pairs.env (T : Env w V) (K : Pairs w) (A : One) (e : Entry w) (regs : Nat → Option (BitVec w)) (h : Heap V) (j : Int) (v : Nat) :
    Option e.impl.V :=
  if (K.src v).own then (regs v).map (e.impl.bcast T.E) else load T K.loads A.pair e h j 0 0 v

/-- `for (e = 0; e < ARITY; ++e) { if (get(test, e) > thr) … ++particles_j; }` (kernels.hpp:108-116, 214-234): `n` lanes from lane `l`. -/
def Pairs.lanes (T : Env w V) (F : FOps w) (K : Pairs w) (act : Act w V X) {I : SV.Impl w} (D : Cmp I) (i j : Int) (t : I.V)
    (vs : List I.V) : Nat → Nat → Heap V × X → Option (Heap V × X)
  | 0, _, s => some s
  | n + 1, l, s => (D.index T.E t (BitVec.ofNat 32 l)).bind fun x =>
      (if F.rel K.rel x K.thr then (vs.mapM fun v => D.index T.E v (BitVec.ofNat 32 l)).bind fun ys => act i (j + l) ys s
        else some s).bind (Pairs.lanes T F K act D i j t vs n (l + 1))

/-- One iteration of the inner loop (kernels.hpp:101-120, 208-237), without the increment of the index. -/
def Pairs.body (T : Env w V) (F : FOps w) (K : Pairs w) (A : One) (act : Act w V X) (e : Entry w) (regs : Nat → Option (BitVec w))
    (i j : Int) (s : Heap V × X) : Option (Heap V × X) :=
  (K.test.vec e.impl e.cmp T.E (K.env T A e regs s.1 j)).bind fun t =>
    (K.vals.mapM fun (ex : Expr w) => ex.vec e.impl e.cmp T.E (K.env T A e regs s.1 j)).bind fun vs =>
      e.cmp.bind fun D => (D.rel T.E K.rel t (e.impl.bcast T.E K.thr)).bind fun m =>
        if D.any T.E m then K.lanes T F act D i j t vs e.impl.N 0 s else some s

/-- Calls of the body for one `particles_i`. Those with an arity other than the vector's use `short_vec<T, 1>`. -/
def Pairs.calls (T : Env w V) (F : FOps w) (K : Pairs w) (A : One) (act : Act w V X) (e1 e : Entry w) (regs : Nat → Option (BitVec w))
    (i : Int) : List (Nat × Int) → Heap V × X → Option (Heap V × X)
  | [], s => some s
  | c :: cs, s => (K.body T F A act (if c.1 = e.impl.N then e else e1) regs i c.2 s).bind (Pairs.calls T F K A act e1 e regs i cs)

/-- Types of the index, of `n`, and of the lambda's last parameter. -/
structure Counters where
  (t1 t2 t3 : Peel.CTy)

/-- The outer loop (kernels.hpp:86-122, 196-239) for the particles in the list. Simplification: members of `particles_i` are read when the
    iteration begins, as in kernels.hpp:87-88; the lambda in kernels.hpp:205-206 reads them up to three times. -/
def Pairs.outer (T : Env w V) (F : FOps w) (K : Pairs w) (A : One) (act : Act w V X) (t : Counters) (e1 e : Entry w) (n : Int) :
    List Int → Heap V × X → Option (Heap V × X)
  | [], s => some s
  | i :: is, s => (Peel.peelFn t.t1 t.t2 t.t3 e.impl.N (i + 1) n).bind fun q =>
      (K.calls T F A act e1 e (fun v => fetch T A s.1 i (K.src v).r (K.src v).k) i q.1 s).bind (Pairs.outer T F K A act t e1 e n is)

/-- All pairs of the `n` particles. -/
def Pairs.search (T : Env w V) (F : FOps w) (K : Pairs w) (A : One) (act : Act w V X) (t : Counters) (e1 e : Entry w) (n : Nat)
    (s : Heap V × X) : Option (Heap V × X) :=
  K.outer T F A act t e1 e n (Peel.iota 0 n) s

/-- `grid.callback(functor)` (soa_grid.hpp:160-164). A null pointer is represented by a number which no buffer has. Which kind of
    undefined behaviour occurs is not distinguished. -/
def runFunctor (C : Cfg V) (f : One → Heap V → Option (Heap V)) (W : World V) (s : Nat) : Except UB (World V × Out V) :=
  W.withG s fun g =>
    match selectSizes C.tr g.dim with
    | .error x => .ok (W, .threw x)
    | .ok e =>
      match f ⟨e, g.data.getD W.h.next⟩ W.h with
      | some h => .ok (⟨h, W.g⟩, .unit)
      | none => .error .oob

/-! ### Updates of members -/

/-- An operand of the scalar code: lane `k` of the values, or a member. -/
inductive Arg where
  | val (k : Nat)
  | mem (s : Src)

/-- A statement of the scalar code: `member = code`, e.g. `particles_j.rho() += rho_ij` (kernels.hpp:111-113). -/
structure Upd (w : Nat) where
  dst : Src
  code : Expr w
  arg : Nat → Arg

/-- Operand of a statement. -/
def Upd.env (T : Env w V) (A : One) (u : Upd w) (i j : Int) (ys : List (BitVec w)) (h : Heap V) (v : Nat) : Option (BitVec w) :=
  match u.arg v with
  | .val k => ys[k]?
  | .mem s => fetch T A h (if s.own then i else j) s.r s.k

/-- One statement. -/
def Upd.exec (T : Env w V) (F : FOps w) (A : One) (u : Upd w) (i j : Int) (ys : List (BitVec w)) (h : Heap V) : Option (Heap V) :=
  if u.code.vars.all fun v => (u.env T A i j ys h v).isSome
  then store T A (if u.dst.own then i else j) u.dst.r u.dst.k (u.code.scalar F fun v => (u.env T A i j ys h v).getD 0) h
  else none

/-- The statements, in order (kernels.hpp:111-113). -/
def execAll (T : Env w V) (F : FOps w) (A : One) (us : List (Upd w)) : Act w V Unit := fun i j ys s =>
  (us.foldlM (fun h (u : Upd w) => u.exec T F A i j ys h) s.1).map fun h => (h, ())

/-- compute_density_lfa from the copies of the accessor on (kernels.hpp:77-123), for any statements. -/
def Pairs.direct (T : Env w V) (F : FOps w) (K : Pairs w) (us : List (Upd w)) (t : Counters) (e1 e : Entry w) (n : Nat) (A : One)
    (h : Heap V) : Option (Heap V) :=
  (K.search T F A (execAll T F A us) t e1 e n (h, ())).map (·.1)

/-- The same, run by `callback`. -/
def interact (C : Cfg V) (B : Bits w V) (base : Nat → Nat) (E : FEnv) (F : FOps w) (K : Pairs w) (us : List (Upd w)) (t : Counters)
    (e1 e : Entry w) (n : Nat) (W : World V) (s : Nat) : Except UB (World V × Out V) :=
  runFunctor C (K.direct ⟨C.L, B, base, E⟩ F us t e1 e n) W s

end LFA.GK
