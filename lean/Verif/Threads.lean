import Verif.World

/-
  Several threads of the host which share soa_grids: functors run by `callback` (soa_grid.hpp:160-170), as in the parallel loops of
  examples/jacobi/main.cpp:184-204 and examples/gauss/main.cpp:233-244, and calls of `get` and `set`.

  Simplifications: a read or write of one member is one step, and threads see each other's writes in the order of the schedule. For
  programs without data races C++ promises just that.
-/
set_option linter.unusedSectionVars false
namespace LFA
namespace Thr

/-- A member reached through an accessor: grid variable, coordinate, constant offset, member and array index (macros.hpp:207-215). -/
structure Ref where
  s : Nat
  (x y z X Y Z : Int)
  (r k : Nat)

/-- What an accessor refers to. -/
structure Loc where
  s : Nat
  (x y z : Int)
  (r k : Nat)
deriving DecidableEq

/-- The location of a reference. -/
def Ref.loc (p : Ref) : Loc := ⟨p.s, p.x + p.X, p.y + p.Y, p.z + p.Z, p.r, p.k⟩

/-- A functor: reads and writes of members, depending on what has been read before, steps which access no grid, and a result. -/
inductive Prog (V ρ : Type) where
  | ret (v : ρ)
  | tau (c : Prog V ρ)
  | peek (p : Ref) (c : V → Prog V ρ)
  | poke (p : Ref) (v : V) (c : Prog V ρ)

variable {V : Type} [DecidableEq V] (C : Cfg V) {ρ : Type}

/-- The bytes of a reference: buffer, address in the buffer and number of bytes (macros.hpp:207-215, detail/macros.hpp:92-125). -/
def Ref.bytes (w : World V) (p : Ref) : Option (Nat × Int × Nat) :=
  match w.g p.s, C.L[p.r]? with
  | some g, some m =>
    match selectSizes C.tr g.dim, g.data with
    | .ok e, some id => some (id, ((accAt e (genIndex e p.x p.y p.z)).shift p.X p.Y p.Z).userRef C.L p.r m p.k, m.ty.size)
    | _, _ => none
  | _, _ => none

/-- The next step of a functor. `callback` itself reads the dimensions and the pointer to the data, nothing else
    (soa_grid.hpp:160-170). -/
def advance (w : World V) : Prog V ρ → Except UB (World V × Prog V ρ)
  | .ret v => .ok (w, .ret v)
  | .tau c => .ok (w, c)
  | .peek p c =>
    match w.step C (.peek p.s p.x p.y p.z p.X p.Y p.Z p.r p.k) with
    | .ok (w', .val (some v)) => .ok (w', c v)
    | .ok _ => .error .indet
    | .error u => .error u
  | .poke p v c =>
    match w.step C (.poke p.s p.x p.y p.z p.X p.Y p.Z p.r p.k v) with
    | .ok (w', _) => .ok (w', c)
    | .error u => .error u

/-- Threads take steps in the order given by a schedule. -/
def exec (w : World V) (T : Nat → Prog V ρ) : List Nat → Except UB (World V × (Nat → Prog V ρ))
  | [] => .ok (w, T)
  | i :: sched =>
    match advance C w (T i) with
    | .error u => .error u
    | .ok (w', t) => exec w' (World.upd T i t) sched

/-- A call of `get(x, y, z)` (soa_grid.hpp:213-229) or `set(x, y, z, cell)` (soa_grid.hpp:186-198). -/
inductive Call (V : Type) where
  | get (s x y z : Nat)
  | set (s x y z : Nat) (c : Cell V)

/-- The grid of a call. -/
def Call.s : Call V → Nat
  | .get s _ _ _ => s
  | .set s _ _ _ _ => s

/-- Progress of a call: before `prep`/`load`, before `callback`, before the return, returned. -/
inductive Phase where
  | start
  | staged
  | done
  | returned
deriving DecidableEq

/-- State of the threads which call `get` and `set`. `ptr s` is the pointer in the staging buffer of grid `s`
    (soa_grid.hpp:408, detail/staging_buffer.hpp:58-59): it points to a struct of some thread. `cell i` is the struct of thread `i`: the
    local variable of `get`, or the argument of `set`; it is gone once the call has returned. -/
structure Shared (V : Type) where
  w : World V
  ptr : Nat → Option Nat
  cell : Nat → Option (Cell V)
  phase : Nat → Phase
  result : Nat → Option (Cell V)

/-- `callback(get_instance_functor(cell_staging_buffer.data(), x, y, z, 1))` and its counterpart in `set`. -/
def Shared.functor (σ : Shared V) (c : Call V) : Except UB (Shared V) :=
  match σ.ptr c.s with
  | none => .error .uninitField
  | some p =>
    match σ.cell p with
    | none => .error .dangling
    | some t =>
      match c with
      | .get s x y z =>
        match σ.w.step C (.get s x y z [t]) with
        | .ok (w', .cells [t']) => .ok { σ with w := w', cell := World.upd σ.cell p (some t') }
        | .ok (w', _) => .ok { σ with w := w' }
        | .error u => .error u
      | .set s x y z _ =>
        match σ.w.step C (.set s x y z [t]) with
        | .ok (w', _) => .ok { σ with w := w' }
        | .error u => .error u

/-- The next step of the call of thread `i`. -/
def Shared.advance (calls : Nat → Call V) (σ : Shared V) (i : Nat) : Except UB (Shared V) :=
  match σ.phase i with
  -- soa_grid.hpp:189-190 and 217-218: resize() does nothing, load() and prep() set the pointer
  | .start => .ok { σ with ptr := World.upd σ.ptr (calls i).s (some i), phase := World.upd σ.phase i .staged }
  | .staged =>
    match σ.functor C (calls i) with
    | .error u => .error u
    | .ok σ => .ok { σ with phase := World.upd σ.phase i .done }
  -- soa_grid.hpp:227-228: save() does nothing
  | .done => .ok ⟨σ.w, σ.ptr, World.upd σ.cell i none, World.upd σ.phase i .returned, World.upd σ.result i (σ.cell i)⟩
  | .returned => .ok σ

/-- Calls take steps in the order given by a schedule. -/
def Shared.exec (calls : Nat → Call V) (σ : Shared V) : List Nat → Except UB (Shared V)
  | [] => .ok σ
  | i :: sched =>
    match σ.advance C calls i with
    | .error u => .error u
    | .ok σ => Shared.exec calls σ sched

/-- All threads are about to call. `fresh i` is what the local variable of `get` contains after its construction. -/
def Shared.initial (w : World V) (calls : Nat → Call V) (fresh : Nat → Cell V) : Shared V :=
  ⟨w, fun _ => none, fun i => some (match calls i with | .get _ _ _ _ => fresh i | .set _ _ _ _ c => c), fun _ => .start, fun _ => none⟩

/-- Accesses of a call to the pointer in the staging buffer: whether its next step reads or writes it. -/
inductive Access where
  | read (s : Nat)
  | write (s : Nat)
deriving DecidableEq

/-- The access to a staging buffer of the next step of thread `i`. -/
def Shared.access (calls : Nat → Call V) (σ : Shared V) (i : Nat) : Option Access :=
  match σ.phase i with
  | .start => some (.write (calls i).s)
  | .staged => some (.read (calls i).s)
  | _ => none

end Thr
end LFA
