import Verif.GridSpec
import Verif.SoaArray

/-
  soa_vector (soa_vector.hpp) on top of soa_grid, with host functors.
-/
set_option linter.unusedSectionVars false
namespace LFA

/-! ### `count * 1.2` -/

/-- Rounds a natural number to the nearest IEEE double (53 bit significand, ties to even). Also valid for a natural number times
    a fixed power of two, as long as the result is a normal number. -/
def roundDouble (p : Nat) : Nat :=
  let s := p.log2 + 1 - 53
  let q := p / 2 ^ s
  let r := p % 2 ^ s
  (if 2 ^ s < 2 * r ∨ (2 * r = 2 ^ s ∧ q % 2 = 1) then q + 1 else q) * 2 ^ s

/-- `static_cast<std::size_t>(count * 1.2)` (soa_vector.hpp:147): `count` is converted to double, multiplied with the double
    nearest to 1.2, which is 5404319552844595 / 2^52, and truncated. -/
def grow (count : Nat) : Nat := roundDouble (roundDouble count * 5404319552844595) / 2 ^ 52

/-! ### soa_vector -/

/-- Member variables of `soa_vector` (soa_vector.hpp:189-190). -/
structure SVec where
  g : Grid
  n : Nat

section
variable {V : Type} [DecidableEq V] (C : Cfg V)

/-- State of a member function: `*this` and the heap. -/
abbrev VS (V : Type) := SVec × Heap V

/-- Attach the vector to the outcome of a call which modified its grid's buffer only. -/
def Res.withVec {α : Type} (v : SVec) : Res (Heap V) α → Res (VS V) α
  | .ok a h => .ok a (v, h)
  | .throw e h => .throw e (v, h)
  | .ub u => .ub u

/-- An exception leaves a block in which the grid `ng` is a local variable. -/
def unwind (ng : Grid) (e : Exc) (v : SVec) (h : Heap V) : Res (VS V) Unit :=
  match ng.dtor C h with
  | .ok _ h => .throw e (v, h)
  | .throw _ _ => .ub .terminate
  | .ub u => .ub u

/-- `soa_vector(count)` (soa_vector.hpp:46-52). -/
def SVec.new (n : Nat) (h : Heap V) : Res (VS V) Unit :=
  match Grid.new C ⟨n, 1, 1⟩ h with
  | .ok _ (g, h) => .ok () (⟨g, n⟩, h)
  | .throw e (g, h) => .throw e (⟨g, n⟩, h)
  | .ub u => .ub u

/-- `soa_vector(count, value)` (soa_vector.hpp:54-60). If `broadcast` throws then the grid is destroyed. -/
def SVec.newFill (n : Nat) (c : Cell V) (h : Heap V) : Res (VS V) Unit :=
  match Grid.new C ⟨n, 1, 1⟩ h with
  | .ok _ (g, h) =>
    match g.broadcast C 0 0 0 c n h with
    | .ok _ h => .ok () (⟨g, n⟩, h)
    | .throw e h => unwind C g e ⟨g, n⟩ h
    | .ub u => .ub u
  | .throw e (g, h) => .throw e (⟨g, n⟩, h)
  | .ub u => .ub u

/-- The implicit copy constructor: members `grid` and `count` are copied. -/
def SVec.copyCtor (o : SVec) (h : Heap V) : Res (VS V) Unit :=
  match Grid.copyCtor C o.g h with
  | .ok _ (g, h) => .ok () (⟨g, o.n⟩, h)
  | .throw e (g, h) => .throw e (⟨g, o.n⟩, h)
  | .ub u => .ub u

/-- The implicit assignment operator. -/
def SVec.assign (v o : SVec) (h : Heap V) : Res (VS V) Unit :=
  match v.g.assign C o.g h with
  | .ok _ (g, h) => .ok () (⟨g, o.n⟩, h)
  | .throw e (g, h) => .throw e (⟨g, v.n⟩, h)
  | .ub u => .ub u

/-- `set(index, element)` (soa_vector.hpp:67-72). -/
def SVec.set (v : SVec) (i : Nat) (c : Cell V) (h : Heap V) : Res (VS V) Unit :=
  Res.withVec v (v.g.set C i 0 0 [c] 1 h)

/-- `get(index)` (soa_vector.hpp:79-84); `t` is the default constructed cell which gets overwritten. -/
def SVec.get (v : SVec) (i : Nat) (t : Cell V) (h : Heap V) : Res (VS V) (List (Cell V)) :=
  Res.withVec v (v.g.get C i 0 0 [t] 1 h)

/-- `reserve(new_count)` (soa_vector.hpp:111-125). -/
def SVec.reserve (v : SVec) (m : Nat) (h : Heap V) : Res (VS V) Unit :=
  -- soa_grid<...> new_grid(new_count, 1, 1);
  match Grid.new C ⟨m, 1, 1⟩ h with
  | .ub u => .ub u
  | .throw e (_, h) => .throw e (v, h)
  | .ok _ (ng, h) =>
    -- new_grid.resize(new_grid.extent_x(), 1, 1);
    match ng.ex with
    | none => .ub .uninitField
    | some ex =>
      match ng.resize C ⟨ex, 1, 1⟩ h with
      | .ub u => .ub u
      | .throw e (ng, h) => unwind C ng e v h
      | .ok _ (ng, h) =>
        -- new_grid.load(iter + 0, iter + 1, grid.data(), grid.extent_x());
        match v.g.ex, v.g.data.bind h.blk with
        | none, _ => .ub .uninitField
        | _, none => .ub .dangling
        | some oex, some src =>
          match ng.load C [⟨0, 0, 0, v.n⟩] src oex h with
          | .ub u => .ub u
          | .throw e h => unwind C ng e v h
          | .ok _ h =>
            -- swap(new_grid, grid); ~soa_grid()
            let p := Grid.swap ng v.g
            match p.1.dtor C h with
            | .ok _ h => .ok () (⟨p.2, v.n⟩, h)
            | .throw _ _ => .ub .terminate
            | .ub u => .ub u

/-- `resize(new_count)` (soa_vector.hpp:100-109). -/
def SVec.resize (v : SVec) (m : Nat) (h : Heap V) : Res (VS V) Unit :=
  if m > v.g.dim.x then
    (v.reserve C m h).bind fun _ (v, h) => .ok () (⟨v.g, m⟩, h)
  else .ok () (⟨v.g, m⟩, h)

/-- `push_back(element)` (soa_vector.hpp:141-151); `emplace_back(args...)` (162-170) is `push_back(T(args...))`. -/
def SVec.push (v : SVec) (c : Cell V) (h : Heap V) : Res (VS V) Unit :=
  match v.g.ex with
  | none => .ub .uninitField
  | some ex =>
    (if v.n = ex then v.reserve C (grow v.n) h else .ok () (v, h)).bind fun _ (v, h) =>
      (v.set C v.n c h).bind fun _ (v, h) => .ok () (⟨v.g, v.n + 1⟩, h)

/-- `pop_back()` (soa_vector.hpp:153-160): `--count` wraps around at zero; `td` is `T()`. -/
def SVec.pop (v : SVec) (td : Cell V) (h : Heap V) : Res (VS V) Unit :=
  let v : SVec := ⟨v.g, if v.n = 0 then 18446744073709551615 else v.n - 1⟩
  v.set C v.n td h

/-- `~soa_vector()`: destroys the grid. -/
def SVec.dtor (v : SVec) (h : Heap V) : Res (Heap V) Unit := v.g.dtor C h

end

/-! ### Programs with several vectors -/

/-- All vectors of a program, and the heap. -/
structure VecWorld (V : Type) where
  h : Heap V
  v : Nat → Option SVec

/-- One call of the public interface. -/
inductive VecOp (V : Type) where
  | new (s n : Nat)
  | newFill (s n : Nat) (c : Cell V)
  | copy (s t : Nat)
  | assign (s t : Nat)
  | destroy (s : Nat)
  | set (s i : Nat) (c : Cell V)
  | get (s i : Nat) (t : Cell V)
  | push (s : Nat) (c : Cell V)
  | pop (s : Nat) (td : Cell V)
  | clear (s : Nat)
  | resize (s n : Nat)
  | reserve (s n : Nat)
  | size (s : Nat)
  | capacity (s : Nat)
  | empty (s : Nat)
  | poke (s : Nat) (x X : Int) (r k : Nat) (val : V)
  | peek (s : Nat) (x X : Int) (r k : Nat)

namespace VecWorld
variable {V : Type} [DecidableEq V] (C : Cfg V)

/-- No vectors. -/
def init : VecWorld V := ⟨Heap.empty, fun _ => none⟩

/-- Outcome of a member function. -/
def ofVS {α : Type} (w : VecWorld V) (s : Nat) (out : α → ArrOut V) : Res (VS V) α → Except UB (VecWorld V × ArrOut V)
  | .ok a (v, h) => .ok (⟨h, World.upd w.v s (some v)⟩, out a)
  | .throw e (v, h) => .ok (⟨h, World.upd w.v s (some v)⟩, .threw e)
  | .ub u => .error u

/-- Outcome of a constructor: no object if it throws. -/
def ofCtor (w : VecWorld V) (s : Nat) : Res (VS V) Unit → Except UB (VecWorld V × ArrOut V)
  | .ok _ (v, h) => .ok (⟨h, World.upd w.v s (some v)⟩, .unit)
  | .throw e (_, h) => .ok (⟨h, w.v⟩, .threw e)
  | .ub u => .error u

/-- Use of a variable. -/
def withV (w : VecWorld V) (s : Nat) (f : SVec → Except UB (VecWorld V × ArrOut V)) : Except UB (VecWorld V × ArrOut V) :=
  match w.v s with
  | none => .error .dangling
  | some v => f v

/-- Executes one operation (soa_vector.hpp:46-186). -/
def step (w : VecWorld V) : VecOp V → Except UB (VecWorld V × ArrOut V)
  | .new s n => match w.v s with
    | some _ => .error .lifetime
    | none => w.ofCtor s (SVec.new C n w.h)
  | .newFill s n c => match w.v s with
    | some _ => .error .lifetime
    | none => w.ofCtor s (SVec.newFill C n c w.h)
  | .copy s t => match w.v s with
    | some _ => .error .lifetime
    | none => w.withV t fun o => w.ofCtor s (SVec.copyCtor C o w.h)
  | .assign s t => w.withV s fun v => w.withV t fun o => w.ofVS s (fun _ => .unit) (v.assign C o w.h)
  | .destroy s => w.withV s fun v =>
      match v.dtor C w.h with
      | .ok _ h => .ok (⟨h, World.upd w.v s none⟩, .unit)
      | .throw _ _ => .error .terminate
      | .ub u => .error u
  | .set s i c => w.withV s fun v => w.ofVS s (fun _ => .unit) (v.set C i c w.h)
  | .get s i t => w.withV s fun v => w.ofVS s .cells (v.get C i t w.h)
  | .push s c => w.withV s fun v => w.ofVS s (fun _ => .unit) (v.push C c w.h)
  | .pop s td => w.withV s fun v => w.ofVS s (fun _ => .unit) (v.pop C td w.h)
  | .clear s => w.withV s fun v => .ok (⟨w.h, World.upd w.v s (some ⟨v.g, 0⟩)⟩, .unit)
  | .resize s n => w.withV s fun v => w.ofVS s (fun _ => .unit) (v.resize C n w.h)
  | .reserve s n => w.withV s fun v => w.ofVS s (fun _ => .unit) (v.reserve C n w.h)
  | .size s => w.withV s fun v => .ok (w, .nat v.n)
  | .capacity s => w.withV s fun v => .ok (w, .nat v.g.dim.x)
  | .empty s => w.withV s fun v => .ok (w, .nat (if v.n = 0 then 1 else 0))
  | .poke s x X r k val => w.withV s fun v => w.ofVS s (fun _ => .unit)
      (Res.withVec v (v.g.callbackMut C (fun e => pokeFunctor C.L e x 0 0 X 0 0 r k val) w.h))
  | .peek s x X r k => w.withV s fun v => w.ofVS s (fun o => match o with | some a => .val a | none => .unit)
      (Res.withVec v (v.g.callbackRead C (fun e b => peekFunctor C.L e x 0 0 X 0 0 r k b) w.h))

/-- Executes a program. -/
def run (w : VecWorld V) : List (VecOp V) → Except UB (VecWorld V × List (ArrOut V))
  | [] => .ok (w, [])
  | op :: ops =>
    match w.step C op with
    | .error u => .error u
    | .ok (w', out) =>
      match run w' ops with
      | .error u => .error u
      | .ok (w'', outs) => .ok (w'', out :: outs)

end VecWorld

/-! ### Specification -/

/-- What is known of a vector: `dim` is its capacity, `ext` the number of cells its buffer has room for, `known` tells whether the
    vector may be enlarged (copies may not), `n` is its size. `cells i` is the value of cell `i`, if there is an object. Cells
    beyond the size keep old values. -/
structure AVec (V : Type) where
  dim : Nat
  ext : Nat
  known : Bool
  n : Nat
  cells : Nat → Option (Cell V)

namespace VecSpec
variable {V : Type}

/-- All vectors of a program. -/
abbrev State (V : Type) := Nat → Option (AVec V)

/-- One cell overwritten. -/
def put (cells : Nat → Option (Cell V)) (i : Nat) (c : Cell V) : Nat → Option (Cell V) :=
  fun j => if j = i then some c else cells j

/-- Cell `i` may be overwritten. -/
def Writable (L : Layout V) (a : AVec V) (i : Nat) : Prop :=
  i < a.ext ∧ (ArrSpec.trivial L = true ∨ (a.cells i).isSome = true)

instance (L : Layout V) (a : AVec V) (i : Nat) : Decidable (Writable L a i) := by unfold Writable; infer_instance

variable (C : Cfg V) (dv : V)

/-- A vector of `n` equal elements. -/
def fill (n ext : Nat) (c : Cell V) : AVec V := ⟨n, ext, true, n, fun i => if i < n then some c else none⟩

/-- Reallocation: all cells of the new buffer are objects; the first `a.n` have the old values. -/
def reserve (a : AVec V) (m : Nat) : Option (AVec V × ArrOut V) :=
  match selectSizes C.tr ⟨m, 1, 1⟩ with
  | .error e => some (a, .threw e)
  | .ok e =>
    if a.known = true ∧ a.n ≤ e.x ∧ a.n ≤ a.ext ∧ (∀ i, i < a.n → (a.cells i).isSome = true) then
      some (⟨e.x, e.x, true, a.n,
        fun i => if i < a.n then a.cells i else if i < e.x then some (dfltCell C.L dv) else none⟩, .unit)
    else none

/-- push_back. -/
def push (a : AVec V) (c : Cell V) : Option (AVec V × ArrOut V) :=
  if a.known = true then
    match (if a.n = a.ext then reserve C dv a (grow a.n) else some (a, .unit)) with
    | some (a', .unit) =>
      if Writable C.L a' a'.n then some ({ a' with n := a'.n + 1, cells := put a'.cells a'.n c }, .unit) else none
    | r => r
  else none

/-- resize. -/
def resize (a : AVec V) (m : Nat) : Option (AVec V × ArrOut V) :=
  if m > a.dim then
    match reserve C dv a m with
    | some (a', .unit) => some ({ a' with n := m }, .unit)
    | r => r
  else some ({ a with n := m }, .unit)

/-- An operation on an existing vector. -/
def onVec (σ : State V) (s : Nat) (f : AVec V → Option (AVec V × ArrOut V)) : Option (State V × ArrOut V) :=
  match σ s with
  | none => none
  | some a => (f a).map fun p => (World.upd σ s (some p.1), p.2)

/-- A constructor. -/
def create (σ : State V) (s n : Nat) (c : Cell V) : Option (State V × ArrOut V) :=
  match σ s with
  | some _ => none
  | none =>
    match selectSizes C.tr ⟨n, 1, 1⟩ with
    | .error e => some (σ, .threw e)
    | .ok e => some (World.upd σ s (some (fill n e.x c)), .unit)

/-- Effect and result of each operation; `none` if the caller violated the contract. -/
def step (σ : State V) : VecOp V → Option (State V × ArrOut V)
  | .new s n => create C σ s n (dfltCell C.L dv)
  | .newFill s n c => create C σ s n c
  | .copy s t =>
    match σ s, σ t with
    | none, some o =>
      some (World.upd σ s (some { o with known := false, cells := fun i => if i < o.dim then o.cells i else none }), .unit)
    | _, _ => none
  | .assign s t =>
    match σ s, σ t with
    | some a, some o =>
      some (World.upd σ s (some (
        if a.dim = o.dim then { a with n := o.n, cells := fun i => if i < o.dim then o.cells i else a.cells i }
        else { o with known := true, cells := fun i => if i < o.dim then o.cells i else none })), .unit)
    | _, _ => none
  | .destroy s => match σ s with | some _ => some (World.upd σ s none, .unit) | none => none
  | .set s i c => onVec σ s fun a => if Writable C.L a i then some ({ a with cells := put a.cells i c }, .unit) else none
  | .get s i t => onVec σ s fun a => (a.cells i).map fun c => (a, .cells [overlay C.L c t])
  | .push s c => onVec σ s fun a => push C dv a c
  | .pop s td => onVec σ s fun a =>
      if 0 < a.n ∧ Writable C.L a (a.n - 1) then
        some ({ a with n := a.n - 1, cells := put a.cells (a.n - 1) td }, .unit)
      else none
  | .clear s => onVec σ s fun a => some ({ a with n := 0 }, .unit)
  | .resize s m => onVec σ s fun a => resize C dv a m
  | .reserve s m => onVec σ s fun a => reserve C dv a m
  | .size s => onVec σ s fun a => some (a, .nat a.n)
  | .capacity s => onVec σ s fun a => some (a, .nat a.dim)
  | .empty s => onVec σ s fun a => some (a, .nat (if a.n = 0 then 1 else 0))
  | .poke s x X r k val => onVec σ s fun a =>
      match C.L[r]?, a.cells (x + X).toNat with
      | some m, some c =>
        if 0 ≤ x + X ∧ k < m.elems then some ({ a with cells := put a.cells (x + X).toNat (c.set r k val) }, .unit) else none
      | _, _ => none
  | .peek s x X r k => onVec σ s fun a =>
      match C.L[r]?, a.cells (x + X).toNat with
      | some m, some c => if 0 ≤ x + X ∧ k < m.elems then some (a, .val (c r k)) else none
      | _, _ => none

/-- A program respecting all contracts, with everything it observes. -/
def run (σ : State V) : List (VecOp V) → Option (State V × List (ArrOut V))
  | [] => some (σ, [])
  | op :: ops =>
    match step C dv σ op with
    | none => none
    | some (σ', out) =>
      match run σ' ops with
      | none => none
      | some (σ'', outs) => some (σ'', out :: outs)

/-- No vectors. -/
def start : State V := fun _ => none

end VecSpec
end LFA
