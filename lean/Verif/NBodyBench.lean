import Verif.Props.AllPairsScalar

/-
  The complete n-body benchmarks, from the size which the user has given to the last time step: NBodySilver, NBodyGold and NBodyBronze choose
  the capacity of their arrays by the number of particles, NBodyIron has a fixed one; all of them fill two arrays and run time steps
  (examples/performance_tests/main.cpp:1382-1462, 1475-1605, 1618-1726, 1737-1845). Time measurement and output are left out.
-/
set_option linter.unusedSectionVars false
namespace LFA.GK
open SV (Expr Entry FEnv)

variable {V : Type} [DecidableEq V] {w : Nat}

/-- The capacities for which `performance<DIM, …>` is instantiated (main.cpp:1477-1497, 1620-1640, 1739-1759). -/
def AllPairs.capacities : List Nat := [128, 256, 512, 1024, 2048, 4096, 8192]

/-- The cascade of `if (dim[0] <= DIM) return performance<DIM, …>(dim);` (main.cpp:1477-1499, 1620-1642, 1739-1761). -/
def AllPairs.capacity (n : Int) : List Nat → Option Nat
  | [] => none
  | N :: Ns => if n ≤ N then some N else AllPairs.capacity n Ns

/-- `throw std::out_of_range("could not run test …")` (main.cpp:1499, 1642, 1761). The text differs between the benchmarks. -/
def AllPairs.tooMany : Exc := .outOfRange "could not run test as grid dimension X was too large"

/-- Calls in order; an exception ends the program. -/
def AllPairs.calls (L : Layout V) : List (ArrOp V) → ArrWorld V → Except UB (ArrWorld V × ArrOut V)
  | [], W => .ok (W, .unit)
  | op :: ops, W => andThen (W.step L op) fun W _ => AllPairs.calls L ops W

/-- `for (int i = 0; i < numParticles; ++i) { particlesA.push_back(p); particlesB.push_back(p); }` (main.cpp:1392-1400, 1513-1521,
    1656-1664, 1775-1783): `m` particles from `i`. The particle is any function of `i`. -/
def AllPairs.fill (gen : Nat → Cell V) : Nat → Nat → List (ArrOp V)
  | 0, _ => []
  | m + 1, i => .push 0 (gen i) :: .push 1 (gen i) :: AllPairs.fill gen m (i + 1)

/-- Two arrays of capacity `N` (main.cpp:1389-1390, 1510-1511, 1653-1654, 1772-1773; default arguments soa_array.hpp:62), filled with `n`
    particles. `d` is a default constructed particle. -/
def AllPairs.setUp (L : Layout V) (gen : Nat → Cell V) (d : Cell V) (N n : Nat) : Except UB (ArrWorld V × ArrOut V) :=
  AllPairs.calls L (.new 0 N 0 d :: .new 1 N 0 d :: AllPairs.fill gen n 0) ArrWorld.init

/-- `performance(dim)` of NBodyBronze, NBodySilver and NBodyGold with `dim[0] = n` and `dim[1] = t` (main.cpp:1475-1605, 1618-1726,
    1737-1845). -/
def AllPairs.bench (P : AllPairs w V) (e : Entry w) (gen : Nat → Cell V) (d : Cell V) (n t : Int) : Except UB (ArrWorld V × ArrOut V) :=
  match AllPairs.capacity n AllPairs.capacities with
  | none => .ok (ArrWorld.init, .threw AllPairs.tooMany)
  | some N => andThen (AllPairs.setUp P.L gen d N n.toNat) fun W _ => P.run e n.toNat t.toNat W

/-- `performance(dim)` of NBodyIron (main.cpp:1382-1462); `repeats` is `dim[1] / 10`. -/
def AllPairs.ironBench (P : AllPairs w V) (F : SV.Calc w) (gen : Nat → Cell V) (d : Cell V) (n t : Int) : Except UB (ArrWorld V × ArrOut V) :=
  andThen (AllPairs.setUp P.L gen d 8192 n.toNat) fun W _ =>
    match (P.iron F n.toNat (t.tdiv 10).toNat).exec (fun W op => ArrWorld.step P.L W op) W with
    | .error u => .error u
    | .ok (W, _) => .ok (W, .unit)

end LFA.GK
