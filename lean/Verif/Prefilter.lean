import Verif.Mover

/-
  Loops over all pairs of elements of one soa_array, where vectors serve as a filter: if `any()` of the lanes passes the test then the
  elements of the block are tested once more by scalar code, which updates them. This is ParticleInteractorGold
  (examples/performance_tests/main.cpp:2170-2284).
-/
set_option linter.unusedSectionVars false
namespace LFA.GK
open SV (Expr Entry FEnv FOps Mem Writes Cmp Rel)

variable {V : Type} [DecidableEq V] {w : Nat}

/-- A member of the inner loop's element if `own` is set, else of the outer loop's element. -/
structure Of where
  own : Bool
  r : Nat

/-- `particles[k].r() = code` (main.cpp:2219, 2245, 2271: `particles[k].velX() += particles[i].velX()`). -/
structure Bump (w : Nat) where
  r : Nat
  code : Expr w
  src : Nat → Of

/-- What the program is about: `test` is compared to `thr` (`dist2 < radius2`, main.cpp:2206-2211, 2213-2218); one pass over all pairs for
    each of the `bumps` (main.cpp:2200-2224, 2226-2250, 2252-2276). -/
structure Prefilter (w : Nat) (V : Type) where
  L : Layout V
  B : Bits w V
  base : Nat → Nat
  E : FEnv
  F : FOps w
  test : Expr w
  src : Nat → Of
  rel : Rel
  thr : BitVec w
  bumps : List (Bump w)

/-- `particles[i].r()` (main.cpp:2201-2203, 2213-2215, 2219), `i` is converted to `int`. -/
def arrNum (L : Layout V) (B : Bits w V) (W : ArrWorld V) (s i r : Nat) : Option (BitVec w) :=
  match W.step L (.peek s (toInt32 i) r 0) with
  | .ok (_, .val v) => B.bits v
  | _ => none

/-- Scalar code, if all of its variables have a value. Simplification: the compiler does not contract operations. -/
def evalAll (F : FOps w) (c : Expr w) (env : Nat → Option (BitVec w)) : Option (BitVec w) :=
  if c.vars.all (fun v => (env v).isSome) then some (c.scalar F fun v => (env v).getD 0) else none

/-- Body of the innermost loop (main.cpp:2213-2220). `regs` are `posX`, `posY`, `posZ`. -/
def Prefilter.one (P : Prefilter w V) (b : Bump w) (s i : Nat) (regs : Nat → Option (BitVec w)) (k : Nat) (W : ArrWorld V) :
    Except UB (ArrWorld V × ArrOut V) :=
  match evalAll P.F P.test fun v => if (P.src v).own then arrNum P.L P.B W s k (P.src v).r else regs (P.src v).r with
  | none => .error .oob
  | some x =>
    if P.F.rel P.rel x P.thr then
      match evalAll P.F b.code fun v => arrNum P.L P.B W s (if (b.src v).own then k else i) (b.src v).r with
      | none => .error .oob
      | some y => W.step P.L (.poke s (toInt32 k) b.r 0 (P.B.val y))
    else .ok (W, .unit)

/-- `for (k = j; k < j + 8; ++k)` (main.cpp:2212): `n` elements from `k`. -/
def Prefilter.each (P : Prefilter w V) (b : Bump w) (s i : Nat) (regs : Nat → Option (BitVec w)) :
    Nat → Nat → ArrWorld V → Except UB (ArrWorld V × ArrOut V)
  | 0, _, W => .ok (W, .unit)
  | n + 1, k, W => andThen (P.one b s i regs k W) fun W _ => Prefilter.each P b s i regs n (k + 1) W

/-- The vectors of the test (main.cpp:2206-2209): `short_vec<float, 8>(&particles[j].posX()) - posX`. -/
def Prefilter.vecs (P : Prefilter w V) (e : Entry w) (s : Nat) (a : SArr V) (regs : Nat → Option (BitVec w)) (j v : Nat) : Option e.impl.V :=
  if (P.src v).own then arrLoad P.L P.B P.E (P.base s) e a j (P.src v).r else (regs (P.src v).r).map (e.impl.bcast P.E)

/-- Body of the loop over blocks (main.cpp:2206-2222). -/
def Prefilter.block (P : Prefilter w V) (e : Entry w) (b : Bump w) (s i : Nat) (regs : Nat → Option (BitVec w)) (j : Nat) (W : ArrWorld V) :
    Except UB (ArrWorld V × ArrOut V) :=
  W.withA s fun a =>
    match (P.test.vec e.impl e.cmp P.E (P.vecs e s a regs j)).bind fun v => e.cmp.bind fun D =>
      (D.rel P.E P.rel v (e.impl.bcast P.E P.thr)).map (D.any P.E) with
    | none => .error .oob
    | some true => P.each b s i regs e.impl.N j W
    | some false => .ok (W, .unit)

/-- `for (std::size_t j = 0; j != particles.size(); j += 8)` (main.cpp:2205). It is executed for at most `f` iterations: if it does not end
    before, then the result is an error. -/
def Prefilter.inner (P : Prefilter w V) (e : Entry w) (b : Bump w) (s i : Nat) (regs : Nat → Option (BitVec w)) :
    Nat → Nat → ArrWorld V → Except UB (ArrWorld V × ArrOut V)
  | 0, j, W => W.withA s fun a => if j ≠ a.n then .error .oob else .ok (W, .unit)
  | f + 1, j, W => W.withA s fun a =>
      if j ≠ a.n then andThen (P.block e b s i regs j W) fun W _ => Prefilter.inner P e b s i regs f ((j + e.impl.N) % 2 ^ 64) W
      else .ok (W, .unit)

/-- `for (std::size_t i = 0; i != particles.size(); ++i)` (main.cpp:2200-2224), at most `f` iterations of each loop. Members of element `i`
    are read once, before the inner loop (main.cpp:2201-2203). -/
def Prefilter.outer (P : Prefilter w V) (e : Entry w) (b : Bump w) (s f0 : Nat) :
    Nat → Nat → ArrWorld V → Except UB (ArrWorld V × ArrOut V)
  | 0, i, W => W.withA s fun a => if i ≠ a.n then .error .oob else .ok (W, .unit)
  | f + 1, i, W => W.withA s fun a =>
      if i ≠ a.n then andThen (P.inner e b s i (arrNum P.L P.B W s i) f0 0 W) fun W _ => Prefilter.outer P e b s f0 f ((i + 1) % 2 ^ 64) W
      else .ok (W, .unit)

/-- One pass for each member which is updated (main.cpp:2200-2276). -/
def Prefilter.passes (P : Prefilter w V) (e : Entry w) (s f : Nat) : List (Bump w) → ArrWorld V → Except UB (ArrWorld V × ArrOut V)
  | [], W => .ok (W, .unit)
  | b :: bs, W => andThen (P.outer e b s f f 0 W) fun W _ => Prefilter.passes P e s f bs W

/-- `repeats` times (main.cpp:2199-2278). -/
def Prefilter.run (P : Prefilter w V) (e : Entry w) (s f : Nat) : Nat → ArrWorld V → Except UB (ArrWorld V × ArrOut V)
  | 0, W => .ok (W, .unit)
  | t + 1, W => andThen (P.passes e s f P.bumps W) fun W _ => Prefilter.run P e s f t W

end LFA.GK
