import Verif.GridKernel

/-
  Vectorised kernels on grids, executed by several threads: the functors of Verif/GridKernel.lean with `#pragma omp parallel for` in
  front of the loop over the z-coordinates (examples/jacobi/main.cpp:184-186, examples/gauss/main.cpp:233-235). Each thread has its own
  copies of the accessors (`firstprivate`).

  Threads take turns in an arbitrary order. Steps are loads of single vectors and stores of single elements, so that the elements of a
  vector may become visible to other threads one after the other. As usual for sequentially consistent models, this is only adequate for
  programs without data races.
-/
set_option linter.unusedSectionVars false
namespace LFA.GK
open SV (Expr Entry FEnv Mem Writes)

variable {V : Type} [DecidableEq V] {w : Nat}

/-- The `short_vec` type which a call of the body uses. -/
def entryOf (e1 e : Entry w) (c : At) : Entry w := if c.a = e.impl.N then e else e1

/-- What a thread is doing: nothing; loading the variables in `todo` for a call of the body, `regs` has been loaded already; storing the
    elements of the result. -/
inductive Stat (e1 e : Entry w) where
  | idle
  | loading (c : At) (todo : List Nat) (regs : Nat → Option (entryOf e1 e c).impl.V)
  | storing (c : At) (ws : Writes w)

/-- A thread: calls of the body which are still to be made, and what it is doing. -/
structure Thread (e1 e : Entry w) where
  calls : List At
  stat : Stat e1 e

/-- One step of a thread (examples/jacobi/main.cpp:161-175). `none`: undefined behaviour. A thread which has finished waits. -/
def stepT (T : Env w V) (K : Stencil w) (A : Pair) (e1 e : Entry w) (th : Thread e1 e) (h : Heap V) : Option (Thread e1 e × Heap V) :=
  match th.stat with
  | .idle =>
    match th.calls with
    | [] => some (th, h)
    | c :: cs => some (⟨cs, .loading c K.code.vars fun _ => none⟩, h)
  | .loading c (j :: todo) regs => (load T K A (entryOf e1 e c) h c.x c.y c.z j).map fun v =>
      (⟨th.calls, .loading c todo fun i => if i = j then some v else regs i⟩, h)
  | .loading c [] regs => (K.code.vec (entryOf e1 e c).impl (entryOf e1 e c).cmp T.E regs).bind fun v =>
      match T.L[K.dst.r]? with
      | some m => (elem (w := w) T.L (T.base A.idt) A.et c.x c.y c.z K.dst m).bind fun q =>
          (K.mode.store (entryOf e1 e c).impl T.E v q).map fun ws => (⟨th.calls, .storing c ws⟩, h)
      | none => none
  | .storing c (p :: ws) =>
    match T.L[K.dst.r]?, h.blk A.idt with
    | some m, some b =>
      match put T.B m.ty (T.base A.idt) [p] b with
      | .ok b' => some (⟨th.calls, .storing c ws⟩, h.set A.idt b')
      | .error _ => none
    | _, _ => none
  | .storing _ [] => some (⟨th.calls, .idle⟩, h)

/-- Bytes of a buffer which are read or written. -/
structure Access where
  id : Nat
  addr : Int
  n : Nat
  write : Bool

/-- What the next step of a thread accesses. -/
def Thread.next (T : Env w V) (K : Stencil w) (A : Pair) {e1 e : Entry w} (th : Thread e1 e) : Option Access :=
  match th.stat with
  | .loading c (j :: _) _ =>
    let id := if K.new j then A.idt else A.ids
    let ext := if K.new j then A.et else A.es
    (T.L[(K.src j).r]?).map fun m =>
      ⟨id, addr T.L (T.base id) ext c.x c.y c.z (K.src j) m - T.base id, (entryOf e1 e c).impl.N * m.ty.size, false⟩
  | .storing _ ((q, _) :: _) => (T.L[K.dst.r]?).map fun m => ⟨A.idt, q * (w / 8 : Nat) - T.base A.idt, m.ty.size, true⟩
  | _ => none

/-- Two accesses by different threads which are a data race if nothing orders them: they share a byte, and at least one is a store. -/
def Access.Conflict (p p' : Access) : Prop :=
  p.id = p'.id ∧ (p.write = true ∨ p'.write = true) ∧
    ∃ byte : Int, p.addr ≤ byte ∧ byte < p.addr + p.n ∧ p'.addr ≤ byte ∧ byte < p'.addr + p'.n

/-- All threads and the memory which they share. -/
structure Team (e1 e : Entry w) (V : Type) where
  threads : Nat → Thread e1 e
  h : Heap V

/-- Execution in the order of a schedule, which contains the number of a thread for each step. -/
def exec (T : Env w V) (K : Stencil w) (A : Pair) (e1 e : Entry w) : List Nat → Team e1 e V → Option (Team e1 e V)
  | [], S => some S
  | i :: is, S => (stepT T K A e1 e (S.threads i) S.h).bind fun r =>
      exec T K A e1 e is ⟨World.upd S.threads i r.1, r.2⟩

/-- The thread has done all of its work. -/
def Thread.done {e1 e : Entry w} (th : Thread e1 e) : Bool :=
  match th.calls, th.stat with
  | [], .idle => true
  | _, _ => false

/-- The barrier at the end of the parallel region: all `n` threads have finished. -/
def Team.done {e1 e : Entry w} (S : Team e1 e V) (n : Nat) : Bool := (List.range n).all fun i => (S.threads i).done

/-- The rows with z-coordinates `zs`. -/
def Box.slices (b : Box) (zs : List Int) : List (Int × Int) :=
  zs.flatMap fun z => (Peel.iota b.y0 (b.y1 - b.y0).toNat).map fun y => (y, z)

/-- The calls of the body which a thread makes, if its share of the loop (examples/jacobi/main.cpp:187-202) are the z-coordinates `zs`.
    `none`: undefined behaviour in the loop peeler; all rows have the same range. -/
def share (t : Peel.CTy) (N : Nat) (b : Box) (zs : List Int) : Option (List At) :=
  (Peel.peel t N b.x0 b.x1).map fun q => (b.slices zs).flatMap fun r => q.1.map fun c => ⟨c.1, c.2, r.1, r.2⟩

/-- The threads at the beginning of the parallel region. -/
def team (t : Peel.CTy) (e1 e : Entry w) (b : Box) (zs : Nat → List Int) (h : Heap V) : Team e1 e V :=
  ⟨fun i => ⟨(share t e.impl.N b (zs i)).getD [], .idle⟩, h⟩

/-- `operator()` of the functor, executed by threads which share the loop over the z-coordinates as given by `zs`. Yields whether all
    `n` threads have finished when the schedule ends. -/
def parallel (T : Env w V) (K : Stencil w) (A : Pair) (t : Peel.CTy) (e1 e : Entry w) (b : Box) (n : Nat) (zs : Nat → List Int)
    (sched : List Nat) (h : Heap V) : Option (Bool × Heap V) :=
  (Peel.peel t e.impl.N b.x0 b.x1).bind fun _ =>
    (exec T K A e1 e sched (team t e1 e b zs h)).map fun S => (S.done n, S.h)

/-- `grid_old.callback(&grid_new, functor)` (soa_grid.hpp:172-184, examples/jacobi/main.cpp:251) with a functor that uses several threads.
    `none`: the threads have not finished yet when the schedule ends. -/
def updatePar (C : Cfg V) (B : Bits w V) (base : Nat → Nat) (E : FEnv) (K : Stencil w) (t : Peel.CTy) (e1 e : Entry w) (b : Box)
    (n : Nat) (zs : Nat → List Int) (sched : List Nat) (W : World V) (s o : Nat) : Option (Except UB (World V × Out V)) :=
  match W.g s, W.g o with
  | some g, some g' =>
    match g.dualCallback C g' (fun es et h =>
      match parallel ⟨C.L, B, base, E⟩ K ⟨es, et, g.data.getD h.next, g'.data.getD h.next⟩ t e1 e b n zs sched h with
      | some (fin, h') => .ok fin h'
      | none => .ub .oob) W.h with
    | .ok true h => some (.ok (⟨h, W.g⟩, .unit))
    | .ok false _ => none
    | .throw x h => some (.ok (⟨h, W.g⟩, .threw x))
    | .ub u => some (.error u)
  | _, _ => some (.error .dangling)

/-- Time steps (examples/jacobi/main.cpp:250-254), the threads of each follow the schedule given for it. An exception ends the loop. -/
def timeStepsPar (C : Cfg V) (B : Bits w V) (base : Nat → Nat) (E : FEnv) (K : Stencil w) (t : Peel.CTy) (e1 e : Entry w) (b : Box)
    (n : Nat) (zs : Nat → List Int) (s o : Nat) : List (List Nat) → World V → Option (Except UB (World V × Out V))
  | [], W => some (.ok (W, .unit))
  | sched :: scheds, W =>
    match updatePar C B base E K t e1 e b n zs sched W s o with
    | none => none
    | some (.error u) => some (.error u)
    | some (.ok (W', .threw x)) => some (.ok (W', .threw x))
    | some (.ok (W', _)) =>
      match W'.step C (.swap s o) with
      | .error u => some (.error u)
      | .ok (W'', _) => timeStepsPar C B base E K t e1 e b n zs s o scheds W''

end LFA.GK
