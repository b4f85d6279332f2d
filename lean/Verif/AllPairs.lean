import Verif.Mover

/-
  Kernels on two soa_arrays which combine each element with all elements: vectors of members of several elements are loaded through an
  accessor, an inner loop visits all elements by a second accessor and broadcasts their members, the results are stored through a third
  accessor to the other array, then the arrays are swapped. This is NBodySilver and NBodyGold
  (examples/performance_tests/main.cpp:1645-1726, 1764-1845).
-/
set_option linter.unusedSectionVars false
namespace LFA.GK
open SV (Expr Entry FEnv FOps Mem Writes Cmp Rel)

variable {V : Type} [DecidableEq V] {w : Nat}

/-- Statements of the loops. Local variables are numbered; `r` is the member, `k` the element of an array member. -/
inductive Stmt (w : Nat) where
  /-- `REAL d = &accessorA.r()[k];` (main.cpp:1674-1682, 1793-1801) -/
  | load (d r k : Nat)
  /-- `REAL d(accessorA2.r()[k]);` (main.cpp:1689-1691, 1694, 1808-1810, 1813) -/
  | other (d r k : Nat)
  /-- `d = c;` (main.cpp:1684-1686, 1689-1701, 1803-1805, 1808-1820) -/
  | assign (d : Nat) (c : Expr w)
  /-- `d = x / sqrt(y);` (main.cpp:1694, 1813): `sqrt` yields a `sqrt_reference`, for which there is an operator of its own -/
  | quot (d : Nat) (x y : Expr w)
  /-- `&accessorB.r()[k] << c;` (main.cpp:1704-1712, 1823-1831) -/
  | store (r k : Nat) (c : Expr w)

/-- The kernel: what is done before, in and after the inner loop. `slack` is 0; NBodyBronze (main.cpp:1530) ends the outer loop at
    `numParticles - 7`. -/
structure AllPairs (w : Nat) (V : Type) where
  L : Layout V
  B : Bits w V
  base : Nat → Nat
  E : FEnv
  slack : Nat
  pre : List (Stmt w)
  inner : List (Stmt w)
  post : List (Stmt w)

/-- `&accessor.r()[k]` of an accessor with index `i` (macros.hpp:193-203, detail/macros.hpp:92-125), counted in elements of `w` bits. -/
def accElem (L : Layout V) (base N i r k : Nat) (m : Member V) : Option Int :=
  let p := base + (SArr.acc N (i : Nat)).userRef L r m k
  if m.ty.size = w / 8 ∧ ((w / 8 : Nat) : Int) ∣ p then some (p / (w / 8 : Nat)) else none

/-- `REAL v = &accessorA.r()[k];` -/
def accLoad (L : Layout V) (B : Bits w V) (E : FEnv) (base : Nat) (e : Entry w) (a : SArr V) (i r k : Nat) : Option e.impl.V :=
  match L[r]? with
  | none => none
  | some m => (accElem (w := w) L base a.N i r k m).bind (Mode.plain.load e.impl E (view B m.ty base a.data))

/-- `accessorA2.r()[k]`. -/
def accRead (L : Layout V) (B : Bits w V) (a : SArr V) (i r k : Nat) : Option (BitVec w) :=
  match L[r]? with
  | none => none
  | some m =>
    match a.data.read ((SArr.acc a.N (i : Nat)).userRef L r m k) m.ty with
    | .ok v => B.bits v
    | .error _ => none

/-- `&accessorB.r()[k] << v;` -/
def accStore (L : Layout V) (B : Bits w V) (E : FEnv) (base : Nat) (e : Entry w) (b : SArr V) (i r k : Nat) (v : e.impl.V) : Option (SArr V) :=
  match L[r]? with
  | none => none
  | some m => (accElem (w := w) L base b.N i r k m).bind fun q => (Mode.plain.store e.impl E v q).bind fun ws =>
      match put B m.ty base ws b.data with
      | .ok d => some { b with data := d }
      | .error _ => none

/-- A statement: `a` and `b` are the arrays of `accessorA` and `accessorB`, which are both at index `i`; `accessorA2` is at index `j`, if it
    may be used. Simplification: local variables have some value from the beginning (in the examples all of them are assigned before
    they are read). -/
def AllPairs.one (P : AllPairs w V) (e : Entry w) (a : SArr V) (i : Nat) (j : Option Nat) (x : (Nat → e.impl.V) × SArr V) :
    Stmt w → Option ((Nat → e.impl.V) × SArr V)
  | .load d r k => (accLoad P.L P.B P.E (P.base 0) e a i r k).map fun v => (Function.update x.1 d v, x.2)
  | .other d r k => j.bind fun j => (accRead P.L P.B a j r k).map fun y => (Function.update x.1 d (e.impl.bcast P.E y), x.2)
  | .assign d c => (c.vec e.impl e.cmp P.E fun q => some (x.1 q)).map fun v => (Function.update x.1 d v, x.2)
  | .quot d x' y' => (x'.vec e.impl e.cmp P.E fun q => some (x.1 q)).bind fun u => (y'.vec e.impl e.cmp P.E fun q => some (x.1 q)).bind fun v =>
      (e.impl.divSqrt P.E u v).map fun v => (Function.update x.1 d v, x.2)
  | .store r k c => (c.vec e.impl e.cmp P.E fun q => some (x.1 q)).bind fun v =>
      (accStore P.L P.B P.E (P.base 1) e x.2 i r k v).map fun b => (x.1, b)

/-- Statements in order. -/
def AllPairs.all (P : AllPairs w V) (e : Entry w) (a : SArr V) (i : Nat) (j : Option Nat) :
    List (Stmt w) → (Nat → e.impl.V) × SArr V → Option ((Nat → e.impl.V) × SArr V)
  | [], x => some x
  | s :: ss, x => (P.one e a i j x s).bind (AllPairs.all P e a i j ss)

/-- `for (accessorA2.index() = 0; accessorA2.index() < numParticles; ++accessorA2)` (main.cpp:1688, 1807): `n` iterations from `j`. -/
def AllPairs.loop (P : AllPairs w V) (e : Entry w) (a : SArr V) (i : Nat) :
    Nat → Nat → (Nat → e.impl.V) × SArr V → Option ((Nat → e.impl.V) × SArr V)
  | 0, _, x => some x
  | n + 1, j, x => (P.all e a i (some j) P.inner x).bind (AllPairs.loop P e a i n (j + 1))

/-- Body of the outer loop (main.cpp:1674-1712, 1793-1831). -/
def AllPairs.body (P : AllPairs w V) (e : Entry w) (n : Nat) (a : SArr V) (i : Nat) (b : SArr V) : Option (SArr V) :=
  (P.all e a i none P.pre (fun _ => e.impl.bcast P.E 0, b)).bind fun x =>
    (P.loop e a i n 0 x).bind fun x => (P.all e a i none P.post x).map Prod.snd

/-- `for (; accessorA.index() < numParticles; accessorA += REAL::ARITY, accessorB += REAL::ARITY)` (main.cpp:1673, 1792). There are at most
    `n` iterations, which is what `f` counts. -/
def AllPairs.outer (P : AllPairs w V) (e : Entry w) (n : Nat) (a : SArr V) : Nat → Nat → SArr V → Option (SArr V)
  | 0, i, b => if i + P.slack < n then none else some b
  | f + 1, i, b => if i + P.slack < n then (P.body e n a i b).bind (AllPairs.outer P e n a f (i + e.impl.N)) else some b

/-- A time step (main.cpp:1669-1716, 1788-1835); the arrays `particlesA` and `particlesB` are 0 and 1. -/
def AllPairs.step (P : AllPairs w V) (e : Entry w) (n : Nat) (W : ArrWorld V) : Except UB (ArrWorld V × ArrOut V) :=
  W.withA 0 fun a => W.withA 1 fun b =>
    match P.outer e n a n 0 b with
    | none => .error .oob
    | some b' => (⟨ArrWorld.upd W.a 1 (some b'), W.gone⟩ : ArrWorld V).step P.L (.swap 0 1)

/-- `repeats` time steps (main.cpp:1668, 1787). -/
def AllPairs.run (P : AllPairs w V) (e : Entry w) (n : Nat) : Nat → ArrWorld V → Except UB (ArrWorld V × ArrOut V)
  | 0, W => .ok (W, .unit)
  | t + 1, W => andThen (P.step e n W) fun W _ => AllPairs.run P e n t W

end LFA.GK
