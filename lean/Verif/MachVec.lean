import Verif.MachGrid
import Verif.SoaVector

/-
  soa_vector in the arithmetic of a 64-bit machine: the functions of `Verif.SoaVector` once more, on top of those of
  `Verif.MachGrid`.
-/
set_option linter.unusedSectionVars false
namespace LFA.Mach

section
variable {V : Type} [DecidableEq V] (C : Cfg V)

/-- `grid.set(x, 0, 0, cell)` (soa_grid.hpp:199-211). -/
def gridSet (g : Grid) (x : Nat) (c : Cell V) (h : Heap V) : Res (Heap V) Unit :=
  g.callbackMut C (fun e => setFunctor C.L e 1 [c] x 0 0 1) h

/-- `grid.get(x, 0, 0)` (soa_grid.hpp:213-230). -/
def gridGet (g : Grid) (x : Nat) (t : Cell V) (h : Heap V) : Res (Heap V) (List (Cell V)) :=
  g.callbackRead C (fun e b => getFunctor C.L e b x 0 0 1 [t]) h

/-- `grid.broadcast(0, 0, 0, cell, count)` (soa_grid.hpp:246-260). -/
def gridBroadcast (g : Grid) (c : Cell V) (count : Nat) (h : Heap V) : Res (Heap V) Unit :=
  g.callbackMut C (fun e => setFunctor C.L e 0 [c] 0 0 0 count) h

/-- `grid.load(begin, end, source, count)` (soa_grid.hpp:284-299). -/
def gridLoad (g : Grid) (ss : List Streak) (src : Block V) (count : Nat) (h : Heap V) : Res (Heap V) Unit :=
  g.callbackMut C (fun e b => loadFunctor C.L b.size e src count ss 0 b) h

/-- An exception leaves a block in which the grid `ng` is a local variable (soa_vector.hpp:54-60, 111-125). -/
def vecUnwind (ng : Grid) (e : Exc) (v : SVec) (h : Heap V) : Res (VS V) Unit :=
  match dtor C ng h with
  | .ok _ h => .throw e (v, h)
  | .throw _ _ => .ub .terminate
  | .ub u => .ub u

/-- `soa_vector(count)` (soa_vector.hpp:46-52). -/
def vecNew (n : Nat) (h : Heap V) : Res (VS V) Unit :=
  match new C ⟨n, 1, 1⟩ h with
  | .ok _ (g, h) => .ok () (⟨g, n⟩, h)
  | .throw e (g, h) => .throw e (⟨g, n⟩, h)
  | .ub u => .ub u

/-- `soa_vector(count, value)` (soa_vector.hpp:54-60). -/
def vecNewFill (n : Nat) (c : Cell V) (h : Heap V) : Res (VS V) Unit :=
  match new C ⟨n, 1, 1⟩ h with
  | .ok _ (g, h) =>
    match gridBroadcast C g c n h with
    | .ok _ h => .ok () (⟨g, n⟩, h)
    | .throw e h => vecUnwind C g e ⟨g, n⟩ h
    | .ub u => .ub u
  | .throw e (g, h) => .throw e (⟨g, n⟩, h)
  | .ub u => .ub u

/-- The implicit copy constructor (soa_vector.hpp:39-196 declares none). -/
def vecCopyCtor (o : SVec) (h : Heap V) : Res (VS V) Unit :=
  match copyCtor C o.g h with
  | .ok _ (g, h) => .ok () (⟨g, o.n⟩, h)
  | .throw e (g, h) => .throw e (⟨g, o.n⟩, h)
  | .ub u => .ub u

/-- The implicit assignment operator (soa_vector.hpp:39-196 declares none). -/
def vecAssign (v o : SVec) (h : Heap V) : Res (VS V) Unit :=
  match assign C v.g o.g h with
  | .ok _ (g, h) => .ok () (⟨g, o.n⟩, h)
  | .throw e (g, h) => .throw e (⟨g, v.n⟩, h)
  | .ub u => .ub u

/-- `set(index, element)` (soa_vector.hpp:67-72). -/
def vecSet (v : SVec) (i : Nat) (c : Cell V) (h : Heap V) : Res (VS V) Unit := Res.withVec v (gridSet C v.g i c h)

/-- `get(index)` (soa_vector.hpp:79-84). -/
def vecGet (v : SVec) (i : Nat) (t : Cell V) (h : Heap V) : Res (VS V) (List (Cell V)) := Res.withVec v (gridGet C v.g i t h)

/-- `reserve(new_count)` (soa_vector.hpp:111-125). -/
def vecReserve (v : SVec) (m : Nat) (h : Heap V) : Res (VS V) Unit :=
  match new C ⟨m, 1, 1⟩ h with
  | .ub u => .ub u
  | .throw e (_, h) => .throw e (v, h)
  | .ok _ (ng, h) =>
    match ng.ex with
    | none => .ub .uninitField
    | some ex =>
      match resize C ng ⟨ex, 1, 1⟩ h with
      | .ub u => .ub u
      | .throw e (ng, h) => vecUnwind C ng e v h
      | .ok _ (ng, h) =>
        match v.g.ex, v.g.data.bind h.blk with
        | none, _ => .ub .uninitField
        | _, none => .ub .dangling
        | some oex, some src =>
          match gridLoad C ng [⟨0, 0, 0, v.n⟩] src oex h with
          | .ub u => .ub u
          | .throw e h => vecUnwind C ng e v h
          | .ok _ h =>
            let p := Grid.swap ng v.g
            match dtor C p.1 h with
            | .ok _ h => .ok () (⟨p.2, v.n⟩, h)
            | .throw _ _ => .ub .terminate
            | .ub u => .ub u

/-- `resize(new_count)` (soa_vector.hpp:100-109). -/
def vecResize (v : SVec) (m : Nat) (h : Heap V) : Res (VS V) Unit :=
  if m > v.g.dim.x then
    (vecReserve C v m h).bind fun _ (v, h) => .ok () (⟨v.g, m⟩, h)
  else .ok () (⟨v.g, m⟩, h)

/-- Continue with a `std::size_t` (evaluation order of C++ [intro.execution]). -/
def chkSize (o : Option Int) (f : Nat → Res (VS V) Unit) : Res (VS V) Unit :=
  match o with
  | none => .ub overflow
  | some n => f n.toNat

/-- `reserve(static_cast<std::size_t>(count * 1.2))` if the buffer is full (soa_vector.hpp:146-148); a capacity which does not
fit into `std::size_t` is undefined (C++ [conv.fpint]). -/
def vecGrow (v : SVec) (ex : Nat) (h : Heap V) : Res (VS V) Unit :=
  if v.n = ex then chkSize (size (grow v.n : Int)) fun m => vecReserve C v m h
  else .ok () (v, h)

/-- `++count` (soa_vector.hpp:150): the machine increments modulo 2^64; here a count which wraps ends the program. -/
def vecCount (v : SVec) (h : Heap V) : Res (VS V) Unit :=
  chkSize (size ((v.n : Int) + 1)) fun n => .ok () (⟨v.g, n⟩, h)

/-- `push_back(element)` (soa_vector.hpp:141-151). -/
def vecPush (v : SVec) (c : Cell V) (h : Heap V) : Res (VS V) Unit :=
  match v.g.ex with
  | none => .ub .uninitField
  | some ex =>
    (vecGrow C v ex h).bind fun _ (v, h) =>
      (vecSet C v v.n c h).bind fun _ (v, h) => vecCount v h

/-- `pop_back()` (soa_vector.hpp:153-160): the machine decrements modulo 2^64; here a count which wraps ends the program. -/
def vecPop (v : SVec) (td : Cell V) (h : Heap V) : Res (VS V) Unit :=
  chkSize (size ((v.n : Int) - 1)) fun n => vecSet C ⟨v.g, n⟩ n td h

open VecWorld (ofVS ofCtor withV)

/-- Executes one operation (soa_vector.hpp:46-186). -/
def vecStep (w : VecWorld V) : VecOp V → Except UB (VecWorld V × ArrOut V)
  | .new s n => match w.v s with
    | some _ => .error .lifetime
    | none => w.ofCtor s (vecNew C n w.h)
  | .newFill s n c => match w.v s with
    | some _ => .error .lifetime
    | none => w.ofCtor s (vecNewFill C n c w.h)
  | .copy s t => match w.v s with
    | some _ => .error .lifetime
    | none => w.withV t fun o => w.ofCtor s (vecCopyCtor C o w.h)
  | .assign s t => w.withV s fun v => w.withV t fun o => w.ofVS s (fun _ => .unit) (vecAssign C v o w.h)
  | .destroy s => w.withV s fun v =>
      match dtor C v.g w.h with
      | .ok _ h => .ok (⟨h, World.upd w.v s none⟩, .unit)
      | .throw _ _ => .error .terminate
      | .ub u => .error u
  | .set s i c => w.withV s fun v => w.ofVS s (fun _ => .unit) (vecSet C v i c w.h)
  | .get s i t => w.withV s fun v => w.ofVS s .cells (vecGet C v i t w.h)
  | .push s c => w.withV s fun v => w.ofVS s (fun _ => .unit) (vecPush C v c w.h)
  | .pop s td => w.withV s fun v => w.ofVS s (fun _ => .unit) (vecPop C v td w.h)
  | .clear s => w.withV s fun v => .ok (⟨w.h, World.upd w.v s (some ⟨v.g, 0⟩)⟩, .unit)
  | .resize s n => w.withV s fun v => w.ofVS s (fun _ => .unit) (vecResize C v n w.h)
  | .reserve s n => w.withV s fun v => w.ofVS s (fun _ => .unit) (vecReserve C v n w.h)
  | .size s => w.withV s fun v => .ok (w, .nat v.n)
  | .capacity s => w.withV s fun v => .ok (w, .nat v.g.dim.x)
  | .empty s => w.withV s fun v => .ok (w, .nat (if v.n = 0 then 1 else 0))
  | .poke s x X r k val => w.withV s fun v => w.ofVS s (fun _ => .unit)
      (Res.withVec v (v.g.callbackMut C (fun e => pokeFunctor C.L e x 0 0 X 0 0 r k val) w.h))
  | .peek s x X r k => w.withV s fun v => w.ofVS s (fun o => match o with | some a => .val a | none => .unit)
      (Res.withVec v (v.g.callbackRead C (fun e b => peekFunctor C.L e x 0 0 X 0 0 r k b) w.h))

/-- Executes a program (any sequence of calls of soa_vector.hpp:46-186). -/
def vecRun (w : VecWorld V) : List (VecOp V) → Except UB (VecWorld V × List (ArrOut V))
  | [] => .ok (w, [])
  | op :: ops =>
    match vecStep C w op with
    | .error u => .error u
    | .ok (w', out) =>
      match vecRun w' ops with
      | .error u => .error u
      | .ok (w'', outs) => .ok (w'', out :: outs)

end
end LFA.Mach
