import Verif.PairKernel
import Verif.SoaVector
import Verif.LoopPeeler

/-
  A functor which counts pairs of elements of a soa_vector by vectors of floating point numbers (`ConditionalUpdater` in
  examples/performance_tests/main.cpp:2355-2415).
-/
namespace LFA.GK
open SV (Expr Entry FEnv FOps Mem Writes Cmp Rel)

/-- What is tested for a pair: variables are members of the element of the outer resp. inner loop, `test` is compared to `thr`
    (`distance2 < radius2`, main.cpp:2394-2399). -/
structure Tally where
  test : Expr 32
  rel : Rel
  thr : BitVec 32
  src : Nat → Src

/-- `1.0f` -/
def one32 : BitVec 32 := 0x3F800000#32

variable {V : Type} [DecidableEq V]

/-- The pointers from which members of elements of the outer loop are loaded (`Float(&i.posX())`, main.cpp:2394-2396). -/
def Tally.loads (K : Tally) : Stencil 32 :=
  ⟨K.test, fun _ => false, fun v => ⟨0, 0, 0, (K.src v).r, (K.src v).k⟩, ⟨0, 0, 0, 0, 0⟩, .plain⟩

/-- Variables of the test: vectors of the outer loop's elements `x`, …, `x + ARITY - 1`, members of the inner loop's element `j`
    (main.cpp:2394-2396). -/
def Tally.env (T : Env 32 V) (K : Tally) (A : One) (e : Entry 32) (h : Heap V) (x j : Int) (v : Nat) : Option e.impl.V :=
  if (K.src v).own then load T K.loads A.pair e h x 0 0 v else (fetch T A h j (K.src v).r (K.src v).k).map (e.impl.bcast T.E)

/-- Body of the inner loop (main.cpp:2394-2402): `if (any(mask)) sum += blend(Float(0.0f), 1.0f, mask)`. -/
def Tally.body (T : Env 32 V) (K : Tally) (A : One) (e : Entry 32) (h : Heap V) (x j : Int) (sum : e.impl.V) : Option e.impl.V :=
  (K.test.vec e.impl e.cmp T.E (K.env T A e h x j)).bind fun t =>
    match e.cmp with
    | none => none -- does not compile
    | some D => (D.rel T.E K.rel t (e.impl.bcast T.E K.thr)).bind fun mask =>
      if D.any T.E mask then e.impl.addA T.E sum (D.blendFn T.E (e.impl.bcast T.E 0) (e.impl.bcast T.E one32) mask) else some sum

/-- The inner loop (main.cpp:2393-2403). -/
def Tally.inner (T : Env 32 V) (K : Tally) (A : One) (e : Entry 32) (n : Nat) (h : Heap V) (x : Int) (sum : e.impl.V) : Option e.impl.V :=
  (List.range n).foldlM (fun s (j : Nat) => K.body T A e h x j s) sum

/-- `float foo[Float::ARITY]` (main.cpp:2405), element number `p` of memory. Simplification: it contains zeros (it is not read before it
    is written). -/
def localArray (p : Int) (N : Nat) : Mem 32 := fun a => if p ≤ a ∧ a < p + N then some 0 else none

/-- `foo << sum` and the final loop (main.cpp:2406-2409). Simplification: `int(x)` of a number which is no `int` is not undefined, but
    unspecified (by `F`). The counter is an `int`, whose overflow is undefined. -/
def addLanes (E : FEnv) (F : FOps 32) (e : Entry 32) (foo : Int) (sum : e.impl.V) (counter : Int) : Option Int :=
  (e.impl.shl E sum foo).bind fun ws => (SV.applyW (localArray foo e.impl.N) ws).bind fun m =>
    (List.range e.impl.N).foldlM (fun c (j : Nat) => (m (foo + j)).bind fun v => (Peel.CTy.signed 32).norm (c + (F.toIntT v).toInt)) counter

/-- `update` (main.cpp:2387-2410), given the indices at which the outer loop's body is executed. -/
def Tally.update (T : Env 32 V) (F : FOps 32) (K : Tally) (A : One) (e : Entry 32) (foo : Int) (n : Nat) (h : Heap V)
    (xs : List (Nat × Int)) (counter : Int) : Option Int :=
  (xs.foldlM (fun s c => K.inner T A e n h c.2 s) (e.impl.bcast T.E 0)).bind fun sum => addLanes T.E F e foo sum counter

/-- LIBFLATARRAY_LOOP_PEELER(Float, long, i.index(), n, update, i) (main.cpp:2375, loop_peeler.hpp:75-94). `callback` passes an accessor with
    index 0 (soa_grid.hpp:240-262). Each of the three calls has its own `sum` and `foo`. -/
def Tally.pass (T : Env 32 V) (F : FOps 32) (K : Tally) (A : One) (t : Peel.CTy) (e1 e : Entry 32) (foo : Nat → Int) (n : Nat) (h : Heap V)
    (counter : Int) : Option Int :=
  (Peel.nextStop t e.impl.N 0).bind fun next => (Peel.lastStop t e.impl.N n).bind fun last =>
    (Peel.loop' t 1 0 next).bind fun s1 => (K.update T F A e1 (foo 1) n h s1.1 counter).bind fun c1 =>
      (Peel.loop' t e.impl.N s1.2 last).bind fun s2 => (K.update T F A e (foo 2) n h s2.1 c1).bind fun c2 =>
        (Peel.loop' t 1 s2.2 n).bind fun s3 => K.update T F A e1 (foo 3) n h s3.1 c2

/-- `operator()` (main.cpp:2370-2377): `repeats` times. -/
def Tally.repeat (T : Env 32 V) (F : FOps 32) (K : Tally) (A : One) (t : Peel.CTy) (e1 e : Entry 32) (foo : Nat → Int) (n : Nat) (h : Heap V) :
    Nat → Int → Option Int
  | 0, c => some c
  | rep + 1, c => (K.pass T F A t e1 e foo n h c).bind (Tally.repeat T F K A t e1 e foo n h rep)

/-- `particles.callback(ConditionalUpdater(repeats, n, radius2, &counter))` for a soa_vector (main.cpp:2451, soa_grid.hpp:240-262). Yields the
    counter. `none`: undefined behaviour, or an exception. -/
def tally (C : Cfg V) (B : Bits 32 V) (base : Nat → Nat) (E : FEnv) (F : FOps 32) (K : Tally) (t : Peel.CTy) (e1 e : Entry 32)
    (foo : Nat → Int) (rep n : Nat) (w : VecWorld V) (s : Nat) (counter : Int) : Option Int :=
  match w.v s with
  | none => none
  | some v =>
    match selectSizes C.tr v.g.dim, v.g.data with
    | .ok e', some id => K.repeat ⟨C.L, B, base, E⟩ F ⟨e', id⟩ t e1 e foo n w.h rep counter
    | _, _ => none

end LFA.GK
