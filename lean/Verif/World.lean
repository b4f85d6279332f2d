import Verif.Grid

/-
  A program using several soa_grids: variables (slots) holding grid objects, a shared heap, and the operations of the
  public interface of soa_grid.
-/
set_option linter.unusedSectionVars false
namespace LFA

/-- All grid objects of a program, and the heap. -/
structure World (V : Type) where
  h : Heap V
  g : Nat → Option Grid

/-- Initial state: no objects, no memory. -/
def World.init {V : Type} : World V := ⟨Heap.empty, fun _ => none⟩

/-- One call of the public interface. `s`, `t` name grid variables. -/
inductive Op (V : Type) where
  | new (s : Nat) (d : Ext)
  | copy (s t : Nat)
  | assign (s t : Nat)
  | swap (s t : Nat)
  | resize (s : Nat) (d : Ext)
  | destroy (s : Nat)
  | set (s x y z : Nat) (cells : List (Cell V))
  | broadcast (s x y z : Nat) (cell : Cell V) (count : Nat)
  | get (s x y z : Nat) (target : List (Cell V))
  | load (s : Nat) (ss : List Streak) (src : Block V) (count : Nat)
  | save (s : Nat) (ss : List Streak) (tgt : Block V) (count : Nat)
  | poke (s : Nat) (x y z X Y Z : Int) (r k : Nat) (v : V)
  | peek (s : Nat) (x y z X Y Z : Int) (r k : Nat)
  | dims (s : Nat)
  | extents (s : Nat)
  | byteSize (s : Nat)

/-- What the caller observes. -/
inductive Out (V : Type) where
  | unit
  | threw (e : Exc)
  | cells (l : List (Cell V))
  | raw (b : Block V)
  | val (v : Option V)
  | triple (e : Ext)
  | nat (n : Nat)

namespace World
variable {V : Type} [DecidableEq V] (C : Cfg V)

/-- Function update for variables. -/
def upd {α : Type} (f : Nat → α) (s : Nat) (a : α) : Nat → α := fun i => if i = s then a else f i

/-- Outcome of a call which may have modified `*this` (in slot `s`) and the heap. -/
def ofGS {α : Type} (w : World V) (s : Nat) (out : α → Out V) : Res (GS V) α → Except UB (World V × Out V)
  | .ok a (g, h) => .ok (⟨h, upd w.g s (some g)⟩, out a)
  | .throw e (g, h) => .ok (⟨h, upd w.g s (some g)⟩, .threw e)
  | .ub u => .error u

/-- Outcome of a constructor call: if it throws then there is no object. -/
def ofCtor (w : World V) (s : Nat) : Res (GS V) Unit → Except UB (World V × Out V)
  | .ok _ (g, h) => .ok (⟨h, upd w.g s (some g)⟩, .unit)
  | .throw e (_, h) => .ok (⟨h, w.g⟩, .threw e)
  | .ub u => .error u

/-- Outcome of a call which modifies the heap only. -/
def ofH {α : Type} (w : World V) (out : α → Out V) : Res (Heap V) α → Except UB (World V × Out V)
  | .ok a h => .ok (⟨h, w.g⟩, out a)
  | .throw e h => .ok (⟨h, w.g⟩, .threw e)
  | .ub u => .error u

/-- Use of a grid variable; without an object this is UB. -/
def withG (w : World V) (s : Nat) (f : Grid → Except UB (World V × Out V)) : Except UB (World V × Out V) :=
  match w.g s with
  | none => .error .dangling
  | some g => f g

/-- Executes one operation (soa_grid.hpp:87-396, 489-493). -/
def step (w : World V) : Op V → Except UB (World V × Out V)
  | .new s d =>
    match w.g s with
    | some _ => .error .lifetime
    | none => w.ofCtor s (Grid.new C d w.h)
  | .copy s t =>
    match w.g s with
    | some _ => .error .lifetime
    | none => w.withG t fun other => w.ofCtor s (Grid.copyCtor C other w.h)
  | .assign s t => w.withG s fun g => w.withG t fun other => w.ofGS s (fun _ => .unit) (g.assign C other w.h)
  | .swap s t => w.withG s fun a => w.withG t fun b =>
      let p := Grid.swap a b
      .ok (⟨w.h, upd (upd w.g s (some p.1)) t (some p.2)⟩, .unit)
  | .resize s d => w.withG s fun g => w.ofGS s (fun _ => .unit) (g.resize C d w.h)
  | .destroy s => w.withG s fun g =>
      match g.dtor C w.h with
      | .ok _ h => .ok (⟨h, upd w.g s none⟩, .unit)
      | .throw _ _ => .error .terminate
      | .ub u => .error u
  | .set s x y z cells => w.withG s fun g => w.ofH (fun _ => .unit) (g.set C x y z cells cells.length w.h)
  | .broadcast s x y z cell n => w.withG s fun g => w.ofH (fun _ => .unit) (g.broadcast C x y z cell n w.h)
  | .get s x y z target => w.withG s fun g => w.ofH .cells (g.get C x y z target target.length w.h)
  | .load s ss src n => w.withG s fun g => w.ofH (fun _ => .unit) (g.load C ss src n w.h)
  | .save s ss tgt n => w.withG s fun g => w.ofH .raw (g.save C ss tgt n w.h)
  | .poke s x y z X Y Z r k v => w.withG s fun g =>
      w.ofH (fun _ => .unit) (g.callbackMut C (fun e => pokeFunctor C.L e x y z X Y Z r k v) w.h)
  | .peek s x y z X Y Z r k => w.withG s fun g =>
      w.ofH .val (g.callbackRead C (fun e b => peekFunctor C.L e x y z X Y Z r k b) w.h)
  | .dims s => w.withG s fun g => .ok (w, .triple g.dim)
  | .extents s => w.withG s fun g =>
      match g.ex, g.ey, g.ez with
      | some x, some y, some z => .ok (w, .triple ⟨x, y, z⟩)
      | _, _, _ => .error .uninitField
  | .byteSize s => w.withG s fun g =>
      match g.bs with
      | some n => .ok (w, .nat n)
      | none => .error .uninitField

/-- Executes a sequence of operations and collects what the caller observes. -/
def run (w : World V) : List (Op V) → Except UB (World V × List (Out V))
  | [] => .ok (w, [])
  | op :: ops =>
    match w.step C op with
    | .error u => .error u
    | .ok (w', out) =>
      match run w' ops with
      | .error u => .error u
      | .ok (w'', outs) => .ok (w'', out :: outs)

end World
end LFA
