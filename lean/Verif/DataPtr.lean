import Verif.GridSpec

/-
  `data()` and `set_data()` of soa_grid (soa_grid.hpp:353-366): a program may take the pointers to the buffers of its grids and hand them to
  other grids.
-/
set_option linter.unusedSectionVars false
namespace LFA

/-- Statements of such a program: the operations of `World`, `char *p = s.data();` and `s.set_data(p);`. -/
inductive PtrOp (V : Type) where
  | op (o : Op V)
  | data (p s : Nat)
  | setData (s p : Nat)

/-- Grids, heap, and pointer variables (`none`: not initialised). A pointer is null or points to a buffer. -/
structure PtrWorld (V : Type) where
  w : World V
  p : Nat → Option (Option Nat)

/-- Initial state. -/
def PtrWorld.init {V : Type} : PtrWorld V := ⟨World.init, fun _ => none⟩

section
variable {V : Type} [DecidableEq V] (C : Cfg V)

/-- `my_data = new_data;` (soa_grid.hpp:363-366). -/
def Grid.setData (g : Grid) (new : Option Nat) : Grid := { g with data := new }

/-- Executes one statement (soa_grid.hpp:353-366; others as in `World`). -/
def PtrWorld.step (W : PtrWorld V) : PtrOp V → Except UB (PtrWorld V × Out V)
  | .op o =>
    match W.w.step C o with
    | .error u => .error u
    | .ok (w, out) => .ok (⟨w, W.p⟩, out)
  | .data p s =>
    match W.w.g s with
    | none => .error .dangling
    | some g => .ok (⟨W.w, World.upd W.p p (some g.data)⟩, .unit)
  | .setData s p =>
    match W.w.g s, W.p p with
    | some g, some d => .ok (⟨⟨W.w.h, World.upd W.w.g s (some (g.setData d))⟩, W.p⟩, .unit)
    | none, _ => .error .dangling
    | _, none => .error .uninitField

/-- A program, and everything the caller observes. -/
def PtrWorld.run (W : PtrWorld V) : List (PtrOp V) → Except UB (PtrWorld V × List (Out V))
  | [] => .ok (W, [])
  | op :: ops =>
    match W.step C op with
    | .error u => .error u
    | .ok (W', out) =>
      match PtrWorld.run W' ops with
      | .error u => .error u
      | .ok (W'', outs) => .ok (W'', out :: outs)

end
end LFA
