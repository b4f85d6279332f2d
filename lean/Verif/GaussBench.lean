import Verif.GaussFilter

/-
  The benchmark of the Gauss filter as a whole (examples/gauss/main.cpp:272-337).
-/
set_option linter.unusedSectionVars false
namespace LFA.GK
open SV (Expr Entry FEnv FOps)

variable {V : Type} [DecidableEq V]

/-- Statements in sequence; an exception ends them. -/
def Gauss.script (C : Cfg V) : List (Op V) → World V → Except UB (World V × Out V)
  | [], W => .ok (W, .unit)
  | op :: ops, W =>
    match W.step C op with
    | .error u => .error u
    | .ok (W', .threw x) => .ok (W', .threw x)
    | .ok (W', _) => script C ops W'

/-- `Cell(1)` (examples/gauss/main.cpp:129-131). Simplification: `temp` is the only member, so all members are 1.0. -/
def Gauss.one (B : Bits 64 V) : Cell V := fun _ _ => B.val 0x3ff0000000000000

/-- `z = 4; z < dim - 4` (examples/gauss/main.cpp:314-315) in `std::size_t`, where `dim - 4` wraps around. -/
def Gauss.interior (dim : Nat) : List Nat := (List.range ((dim + 2 ^ 64 - 4) % 2 ^ 64)).drop 4

/-- The coordinates in the order of the loops of `init` (examples/gauss/main.cpp:312-321). -/
def Gauss.warmCells (d : Ext) : List (Nat × Nat × Nat) :=
  (interior d.z).flatMap fun z => (interior d.y).flatMap fun y => (List.range d.x).map fun x => (x, y, z)

/-- The coordinates in the order of the loops of `sum` (examples/gauss/main.cpp:327-334). -/
def Gauss.allCells (d : Ext) : List (Nat × Nat × Nat) :=
  (List.range d.z).flatMap fun z => (List.range d.y).flatMap fun y => (List.range d.x).map fun x => (x, y, z)

/-- `sum += grid.get(x, y, z).temp` for some cells (examples/gauss/main.cpp:330). `get` copies to a cell which is zero. -/
def Gauss.sum (C : Cfg V) (B : Bits 64 V) (F : FOps 64) (K : Gauss) (s : Nat) (W : World V) :
    List (Nat × Nat × Nat) → BitVec 64 → Except UB (BitVec 64)
  | [], acc => .ok acc
  | p :: ps, acc =>
    match W.step C (.get s p.1 p.2.1 p.2.2 [fun _ _ => B.val 0]) with
    | .error u => .error u
    | .ok (_, .cells [c]) =>
      match B.bits (c K.r K.k) with
      | some v => sum C B F K s W ps (F.add acc v)
      | none => .error .indet
    | .ok _ => .error .indet

/-- `std::fabs(sum1 - sum2) > 0.1` (examples/gauss/main.cpp:287-288): `fabs` clears the sign. -/
def Gauss.differ (F : FOps 64) (sum1 sum2 : BitVec 64) : Bool := F.gt (F.sub sum1 sum2 &&& 0x7fffffffffffffff) 0x3fb999999999999a

/-- `performance` (examples/gauss/main.cpp:272-308), with grids in slots 0 and 1 and `n` time steps. Simplifications: output and timing are
    omitted, and the grids are not destroyed. -/
def Gauss.bench (C : Cfg V) (B : Bits 64 V) (base : Nat → Nat) (E : FEnv) (K : Gauss) (e1 e : Entry 64) (d : Ext) (n : Nat) :
    Except UB (World V × Out V) :=
  match Gauss.script C ([.new 0 d, .new 1 d] ++ (Gauss.warmCells d).map fun p => .set 0 p.1 p.2.1 p.2.2 [Gauss.one B]) World.init with
  | .error u => .error u
  | .ok (W, .threw x) => .ok (W, .threw x)
  | .ok (W, _) =>
    match Gauss.sum C B E.f64 K 0 W (Gauss.allCells d) 0 with
    | .error u => .error u
    | .ok sum1 =>
      match K.call C B base E e1 e d.x d.y d.z W 0 1 with
      | .error u => .error u
      | .ok (W', .threw x) => .ok (W', .threw x)
      | .ok (W', _) =>
        match Gauss.sum C B E.f64 K 1 W' (Gauss.allCells d) 0 with
        | .error u => .error u
        | .ok sum2 =>
          if Gauss.differ E.f64 sum1 sum2 then .ok (W', .threw (.logicError "consistency check failed"))
          else K.steps C B base E e1 e d.x d.y d.z 0 1 n W'

/-- The same with OpenMP (examples/gauss/main.cpp:233-235): `m` threads, thread `i` handles the z-coordinates `zs i`. The threads of the first
    call take turns as in `sched`, those of the time steps as in `scheds`. `none`: threads have not finished when their schedule ends. -/
def Gauss.benchPar (C : Cfg V) (B : Bits 64 V) (base : Nat → Nat) (E : FEnv) (K : Gauss) (e1 e : Entry 64) (d : Ext)
    (m : Nat) (zs : Nat → List Int) (sched : List Nat) (scheds : List (List Nat)) : Option (Except UB (World V × Out V)) :=
  match Gauss.script C ([.new 0 d, .new 1 d] ++ (Gauss.warmCells d).map fun p => .set 0 p.1 p.2.1 p.2.2 [Gauss.one B]) World.init with
  | .error u => some (.error u)
  | .ok (W, .threw x) => some (.ok (W, .threw x))
  | .ok (W, _) =>
    match Gauss.sum C B E.f64 K 0 W (Gauss.allCells d) 0 with
    | .error u => some (.error u)
    | .ok sum1 =>
      match updatePar C B base E (K.functor E.f64) (.unsigned 64) e1 e (Gauss.box d.x d.y d.z) m zs sched W 0 1 with
      | none => none
      | some (.error u) => some (.error u)
      | some (.ok (W', .threw x)) => some (.ok (W', .threw x))
      | some (.ok (W', _)) =>
        match Gauss.sum C B E.f64 K 1 W' (Gauss.allCells d) 0 with
        | .error u => some (.error u)
        | .ok sum2 =>
          if Gauss.differ E.f64 sum1 sum2 then some (.ok (W', .threw (.logicError "consistency check failed")))
          else K.stepsPar C B base E e1 e d.x d.y d.z m zs 0 1 scheds W'

end LFA.GK
