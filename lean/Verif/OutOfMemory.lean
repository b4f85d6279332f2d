import Verif.World
import Verif.SoaVector
import Verif.ThrowingVector

/-
  Running out of memory: what is left behind if `ALLOCATOR().allocate` throws `std::bad_alloc`. `aligned_allocator::allocate`
  (aligned_allocator.hpp:75-98) passes on the exception of `std::allocator`, there is nothing to be cleaned up. In contrast to
  `Throwing`, members do not throw.
-/
set_option linter.unusedSectionVars false
namespace LFA
namespace Oom

variable {V : Type} [DecidableEq V] (C : Cfg V)

/-! ### soa_grid -/

/-- `resize(new_dim_x, new_dim_y, new_dim_z)` (soa_grid.hpp:134-158) without memory: the old buffer is gone, dimensions, extents and
    byte size are the new ones, but `my_data` has not been assigned to. `none` if nothing gets allocated. -/
def resize (g : Grid) (d : Ext) (h : Heap V) : Except UB (Option (GS V)) :=
  if g.dim.x = d.x ∧ g.dim.y = d.y ∧ g.dim.z = d.z then .ok none
  else
    match g.destroyAndDeallocate C h with
    | .ub e => .error e
    | .throw _ _ => .ok none
    | .ok _ h =>
      match selectSizes C.tr d with
      | .error _ => .ok none
      | .ok e => .ok (some ({ g with dim := d, ex := some e.x, ey := some e.y, ez := some e.z, bs := some (byteSizeOf C.L e) }, h))

/-- `soa_grid(dim_x, dim_y, dim_z)` (soa_grid.hpp:87-94): there is no grid. -/
def new (d : Ext) (h : Heap V) : Except UB (Option (Heap V)) :=
  (resize C Throwing.Vec.blank d h).map (Option.map fun p => p.2)

/-- `soa_grid(const soa_grid& other)` (soa_grid.hpp:96-105): the allocation is part of the initialisation of `my_data`. -/
def copyCtor (other : Grid) (h : Heap V) : Except UB (Option (Heap V)) :=
  match other.bs with
  | none => .error .uninitField
  | some _ => .ok (some h)

/-- The state after an operation which could not allocate memory, `none` if it does not allocate any. The other operations do not allocate
    memory, on the host. -/
def step (w : World V) : Op V → Except UB (Option (World V))
  | .new s d => ctor s (new C d w.h)
  | .copy s t => withG t fun o => ctor s (copyCtor o w.h)
  | .assign s t => withG s fun g => withG t fun o => upd s (resize C g o.dim w.h)
  | .resize s d => withG s fun g => upd s (resize C g d w.h)
  | _ => .ok none
where
  /-- Use of a variable. -/
  withG (s : Nat) (f : Grid → Except UB (Option (World V))) : Except UB (Option (World V)) :=
    match w.g s with
    | none => .error .dangling
    | some g => f g
  /-- A constructor: there is no grid. -/
  ctor (s : Nat) (r : Except UB (Option (Heap V))) : Except UB (Option (World V)) :=
    match w.g s with
    | some _ => .error .lifetime
    | none => r.map (Option.map fun h => ⟨h, w.g⟩)
  /-- A member function. -/
  upd (s : Nat) (r : Except UB (Option (GS V))) : Except UB (Option (World V)) :=
    r.map (Option.map fun p => ⟨p.2, World.upd w.g s (some p.1)⟩)

/-- A program which runs out of memory in some of its operations (`true`). It catches the exception right behind the operation (`none` in
    the list of observations). -/
def run (w : World V) : List (Op V × Bool) → Except UB (World V × List (Option (Out V)))
  | [] => .ok (w, [])
  | (op, f) :: ops =>
    match thrown op f with
    | .error e => .error e
    | .ok (some w') => (run w' ops).map fun p => (p.1, none :: p.2)
    | .ok none =>
      match w.step C op with
      | .error e => .error e
      | .ok (w', out) => (run w' ops).map fun p => (p.1, some out :: p.2)
where
  /-- The exception, if any. -/
  thrown (op : Op V) (f : Bool) : Except UB (Option (World V)) := if f then step C w op else .ok none

/-! ### soa_vector -/
namespace Vec

/-- `reserve(new_count)` (soa_vector.hpp:111-125): the constructor of the new grid allocates memory, its `resize` to the full extent may do
    so again. `k` tells which allocation fails. -/
def reserve (m k : Nat) (h : Heap V) : Except UB (Option (Heap V)) :=
  if k = 0 then new C ⟨m, 1, 1⟩ h
  else
    match Grid.new C ⟨m, 1, 1⟩ h with
    | .ub e => .error e
    | .throw _ _ => .ok none
    | .ok _ (ng, h) =>
      match ng.ex with
      | none => .error .uninitField
      | some ex =>
        if k = 1 then
          match resize C ng ⟨ex, 1, 1⟩ h with
          | .error e => .error e
          | .ok none => .ok none
          | .ok (some (ng, h)) => Throwing.Vec.unwound C ng h
        else .ok none

/-- The state after an operation whose `k`-th allocation failed, `none` if it does not allocate that often. -/
def step (w : VecWorld V) (k : Nat) : VecOp V → Except UB (Option (VecWorld V))
  -- soa_vector.hpp:46-60
  | .new s m | .newFill s m _ => if k = 0 then ctor s (new C ⟨m, 1, 1⟩ w.h) else .ok none
  | .copy s t => withV t fun o => if k = 0 then ctor s (copyCtor o.g w.h) else .ok none
  -- the implicit assignment operator assigns to the grid first
  | .assign s t => withV s fun v => withV t fun o =>
      if k = 0 then upd s ((resize C v.g o.g.dim w.h).map (Option.map fun p => (⟨p.1, v.n⟩, p.2))) else .ok none
  | .reserve s m => withV s fun v => upd s ((reserve C m k w.h).map (Option.map fun h => (v, h)))
  -- soa_vector.hpp:100-109
  | .resize s m => withV s fun v => if m > v.g.dim.x then upd s ((reserve C m k w.h).map (Option.map fun h => (v, h))) else .ok none
  -- soa_vector.hpp:141-151
  | .push s _ => withV s fun v =>
      match v.g.ex with
      | none => .error .uninitField
      | some ex => if v.n = ex then upd s ((reserve C (grow v.n) k w.h).map (Option.map fun h => (v, h))) else .ok none
  | _ => .ok none
where
  /-- Use of a variable. -/
  withV (s : Nat) (f : SVec → Except UB (Option (VecWorld V))) : Except UB (Option (VecWorld V)) :=
    match w.v s with
    | none => .error .dangling
    | some v => f v
  /-- A constructor: there is no vector. -/
  ctor (s : Nat) (r : Except UB (Option (Heap V))) : Except UB (Option (VecWorld V)) :=
    match w.v s with
    | some _ => .error .lifetime
    | none => r.map (Option.map fun h => ⟨h, w.v⟩)
  /-- A member function. -/
  upd (s : Nat) (r : Except UB (Option (VS V))) : Except UB (Option (VecWorld V)) :=
    r.map (Option.map fun p => ⟨p.2, World.upd w.v s (some p.1)⟩)

/-- A program which runs out of memory in some of its operations (`some k`: at the `k`-th allocation). -/
def run (w : VecWorld V) : List (VecOp V × Option Nat) → Except UB (VecWorld V × List (Option (ArrOut V)))
  | [] => .ok (w, [])
  | (op, f) :: ops =>
    match thrown op f with
    | .error e => .error e
    | .ok (some w') => (run w' ops).map fun p => (p.1, none :: p.2)
    | .ok none =>
      match w.step C op with
      | .error e => .error e
      | .ok (w', out) => (run w' ops).map fun p => (p.1, some out :: p.2)
where
  /-- The exception, if any. -/
  thrown (op : VecOp V) (f : Option Nat) : Except UB (Option (VecWorld V)) :=
    match f with
    | none => .ok none
    | some k => step C w k op

end Vec
end Oom
end LFA
