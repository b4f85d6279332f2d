import Verif.Functors
import Verif.MemberPtr

/-
  soa_array (soa_array.hpp): a fixed capacity container whose storage is part of the object.
-/
set_option linter.unusedSectionVars false
namespace LFA

/-- Byte-wise copy of a buffer (implicitly defined copy operations and `std::swap` of `char[]`, soa_array.hpp:302-308):
    objects of trivial types are copied, copying the bytes of a non-trivial object does not yield another object. -/
def Block.bytes {V : Type} (b : Block V) : Block V :=
  ⟨b.size, fun j => if (b.get j).nonTriv then .undef else b.get j⟩

/-- `soa_array<T, MY_SIZE>`: capacity `N` (template parameter `MY_SIZE`), `n` is `elements`, `data` is `my_data`
    (soa_array.hpp:48-58, 270-272). -/
structure SArr (V : Type) where
  N : Nat
  n : Nat
  data : Block V

namespace SArr
variable {V : Type} [DecidableEq V] (L : Layout V)

/-- Extents of the accessor type `soa_accessor<value_type, SIZE, 1, 1, 0>`. -/
abbrev dim (N : Nat) : Ext := ⟨N, 1, 1⟩

/-- `at(int)`, `operator[](int)` (soa_array.hpp:118-130, 132-137). -/
def acc (N : Nat) (i : Int) : Acc := accAt (dim N) i

/-- `at(std::size_t)` converts to `ptrdiff_t`, then to the `int` parameter of `operator[]` (soa_array.hpp:139-144). -/
def accSz (N : Nat) (i : Nat) : Acc := acc N (toInt32 i)

/-- Value of the `size_t` expression `elements - 1`. -/
def pred64 (n : Nat) : Nat := (n + 2 ^ 64 - 1) % 2 ^ 64

/-- `construct_all_instances` (soa_array.hpp:274-281) on the uninitialised `my_data`. -/
def constructAll (N : Nat) : Except UB (Block V) :=
  walk N 0 (fun _ idx b => (acc N idx).constructMembers L b) (Block.fresh (aggSize L * N))

/-- `soa_array(elements, value)` (soa_array.hpp:60-69). -/
def new (N n : Nat) (v : Cell V) : Except UB (SArr V) :=
  (constructAll L N).bind fun b =>
    (walk (toInt32 n).toNat 0 (fun _ idx b => (acc N idx).setCell L v b) b).map fun b => ⟨N, n, b⟩

/-- `~soa_array` (soa_array.hpp:90-98); yields the storage after the destructor ran. -/
def dtor (a : SArr V) : Except UB (Block V) :=
  walk a.N 0 (fun _ idx b => (acc a.N idx).destroyMembers L b) a.data

/-- The exception thrown by `load` and `copy_in` (soa_array.hpp:190, 288). -/
def tooLarge : Exc := .outOfRange "insufficient capacity for assignment (other soa_array too large)"

/-- `copy_in` (soa_array.hpp:283-294). `src b` is the storage of `other`, given the current storage `b` of `*this`. -/
def copyIn (a : SArr V) (M m : Nat) (src : Block V → Block V) : Res (SArr V) Unit :=
  if m > a.N then .throw tooLarge a
  else match (acc a.N 0).copyMembers L (acc M 0) src m a.data with
    | .ok b => .ok () ⟨a.N, m, b⟩
    | .error u => .ub u

/-- `operator<<`, `push_back` (soa_array.hpp:160-173, 246-251), host version. -/
def push (a : SArr V) (c : Cell V) : Res (SArr V) Unit :=
  if a.n ≥ a.N then .throw (.outOfRange "capacity exceeded") a
  else match (accSz a.N a.n).setCell L c a.data with
    | .ok b => .ok () ⟨a.N, a.n + 1, b⟩
    | .error u => .ub u

/-- `pop_back` (soa_array.hpp:233-244), host version. -/
def pop (a : SArr V) : Res (SArr V) Unit :=
  if a.n = 0 then .throw (.outOfRange "soa_array is already empty") a else .ok () ⟨a.N, a.n - 1, a.data⟩

/-- `load(accessor, num, offset)` (soa_array.hpp:183-196): `size_t` addition wraps. `src` as in `copyIn`, the source accessor
    denotes struct `j` of an array of `M`. -/
def load (a : SArr V) (M : Nat) (src : Block V → Block V) (j num off : Nat) : Res (SArr V) Unit :=
  let newN := max a.n ((num + off) % 2 ^ 64)
  if newN > a.N then .throw tooLarge a
  else match (accSz a.N off).loadRaw L src num j M a.data with
    | .ok b => .ok () ⟨a.N, newN, b⟩
    | .error u => .ub u

/-- Traversal `for (it = a.begin(); it != a.end(); ++it) { T c = t; *it >> c; … }` (soa_array.hpp:219-231, macros.hpp:176-205);
    if the index of `end()` is negative then the iterator runs out of the buffer. -/
def iter (a : SArr V) (t : Cell V) : Except UB (List (Cell V)) :=
  if toInt32 a.n < 0 then .error .oob
  else walk (toInt32 a.n).toNat 0 (fun _ idx l => ((acc a.N idx).getCell L a.data t).map fun c => l ++ [c]) []

end SArr

/-- All soa_array objects of a program (one struct type, arbitrary capacities), and the storage left behind by objects which
    ceased to exist. -/
structure ArrWorld (V : Type) where
  a : Nat → Option (SArr V)
  gone : List (Block V)

/-- Public interface of soa_array. `cst`: the source is accessed as a const object. -/
inductive ArrOp (V : Type) where
  | new (s N n : Nat) (v : Cell V)
  | copy (s N t : Nat) (cst : Bool)
  | assign (s t : Nat) (cst : Bool)
  | destroy (s : Nat)
  | set (s : Nat) (i : Int) (c : Cell V)
  | get (s : Nat) (i : Int) (t : Cell V)
  | poke (s : Nat) (i : Int) (r k : Nat) (v : V)
  | peek (s : Nat) (i : Int) (r k : Nat)
  | push (s : Nat) (c : Cell V)
  | pop (s : Nat)
  | clear (s : Nat)
  | back (s : Nat) (t : Cell V)
  | load (s t j num off : Nat)
  | append (s t j num : Nat)
  | size (s : Nat)
  | capacity (s : Nat)
  | byteSize (s : Nat)
  | iter (s : Nat) (t : Cell V)
  | swap (s t : Nat)

/-- What the caller observes. -/
inductive ArrOut (V : Type) where
  | unit
  | threw (e : Exc)
  | cells (l : List (Cell V))
  | val (v : V)
  | nat (n : Nat)

namespace ArrWorld
variable {V : Type} [DecidableEq V] (L : Layout V)

/-- Initial state. -/
def init : ArrWorld V := ⟨fun _ => none, []⟩

/-- Function update. -/
def upd {α : Type} (f : Nat → α) (s : Nat) (x : α) : Nat → α := fun i => if i = s then x else f i

/-- Use of an array variable; without an object this is UB. -/
def withA (w : ArrWorld V) (s : Nat) (f : SArr V → Except UB (ArrWorld V × ArrOut V)) : Except UB (ArrWorld V × ArrOut V) :=
  match w.a s with
  | none => .error .dangling
  | some a => f a

/-- A member function which modifies the array in slot `s`. -/
def modify (w : ArrWorld V) (s : Nat) : Res (SArr V) Unit → Except UB (ArrWorld V × ArrOut V)
  | .ok _ a => .ok (⟨upd w.a s (some a), w.gone⟩, .unit)
  | .throw e a => .ok (⟨upd w.a s (some a), w.gone⟩, .threw e)
  | .ub u => .error u

/-- A write to the storage of array `a` in slot `s`. -/
def wr (w : ArrWorld V) (s : Nat) (a : SArr V) : Except UB (Block V) → Except UB (ArrWorld V × ArrOut V)
  | .ok b => .ok (⟨upd w.a s (some { a with data := b }), w.gone⟩, .unit)
  | .error u => .error u

/-- An observation. -/
def ro {α : Type} (w : ArrWorld V) (f : α → ArrOut V) : Except UB α → Except UB (ArrWorld V × ArrOut V)
  | .ok x => .ok (w, f x)
  | .error u => .error u

/-- Storage of the source array `o` in slot `t` while the array in slot `s` is modified. -/
def srcOf (s t : Nat) (o : SArr V) : Block V → Block V := if s = t then id else fun _ => o.data

/-- Executes one operation. Copy operations with a const source of the same type select the implicitly defined copy constructor
    or assignment operator, which copy `elements` and the bytes of `my_data`: the template members are not copy operations
    (soa_array.hpp:71-88, 100-116). -/
def step (w : ArrWorld V) : ArrOp V → Except UB (ArrWorld V × ArrOut V)
  | .new s N n v =>
    match w.a s with
    | some _ => .error .lifetime
    | none =>
      match SArr.new L N n v with
      | .ok a => .ok (⟨upd w.a s (some a), w.gone⟩, .unit)
      | .error u => .error u
  | .copy s N t cst =>
    match w.a s with
    | some _ => .error .lifetime
    | none => w.withA t fun o =>
      if cst = true ∧ N = o.N then .ok (⟨upd w.a s (some ⟨o.N, o.n, o.data.bytes⟩), w.gone⟩, .unit)
      else match SArr.constructAll L N with
        | .error u => .error u
        | .ok b =>
          match SArr.copyIn L ⟨N, 0, b⟩ o.N o.n (fun _ => o.data) with
          | .ok _ a => .ok (⟨upd w.a s (some a), w.gone⟩, .unit)
          | .throw e a => .ok (⟨w.a, a.data :: w.gone⟩, .threw e)
          | .ub u => .error u
  | .assign s t cst => w.withA s fun a => w.withA t fun o =>
      if cst = true ∧ a.N = o.N then .ok (⟨upd w.a s (some ⟨o.N, o.n, o.data.bytes⟩), w.gone⟩, .unit)
      else w.modify s (SArr.copyIn L a o.N o.n (srcOf s t o))
  | .destroy s => w.withA s fun a =>
      match SArr.dtor L a with
      | .ok b => .ok (⟨upd w.a s none, b :: w.gone⟩, .unit)
      | .error u => .error u
  | .set s i c => w.withA s fun a => w.wr s a ((SArr.acc a.N i).setCell L c a.data)
  | .get s i t => w.withA s fun a => w.ro (fun c => .cells [c]) ((SArr.acc a.N i).getCell L a.data t)
  | .poke s i r k v => w.withA s fun a =>
      match L[r]? with
      | none => .error .oob
      | some m => w.wr s a (a.data.assign ((SArr.acc a.N i).arrayRef L r m k) m.ty v)
  | .peek s i r k => w.withA s fun a =>
      match L[r]? with
      | none => .error .oob
      | some m => w.ro .val (a.data.read ((SArr.acc a.N i).arrayRef L r m k) m.ty)
  | .push s c => w.withA s fun a => w.modify s (SArr.push L a c)
  | .pop s => w.withA s fun a => w.modify s (SArr.pop a)
  | .clear s => w.withA s fun a => .ok (⟨upd w.a s (some { a with n := 0 }), w.gone⟩, .unit)
  | .back s t => w.withA s fun a =>
      w.ro (fun c => .cells [c]) ((SArr.accSz a.N (SArr.pred64 a.n)).getCell L a.data t)
  | .load s t j num off => w.withA s fun a => w.withA t fun o => w.modify s (SArr.load L a o.N (srcOf s t o) j num off)
  | .append s t j num => w.withA s fun a => w.withA t fun o => w.modify s (SArr.load L a o.N (srcOf s t o) j num a.n)
  | .size s => w.withA s fun a => .ok (w, .nat a.n)
  | .capacity s => w.withA s fun a => .ok (w, .nat a.N)
  | .byteSize s => w.withA s fun a => .ok (w, .nat (a.n * aggSize L))
  | .iter s t => w.withA s fun a => w.ro .cells (SArr.iter L a t)
  | .swap s t => w.withA s fun a => w.withA t fun b =>
      .ok (⟨upd (upd w.a s (some ⟨a.N, b.n, b.data.bytes⟩)) t (some ⟨b.N, a.n, a.data.bytes⟩), w.gone⟩, .unit)

/-- Executes a program. -/
def run (w : ArrWorld V) : List (ArrOp V) → Except UB (ArrWorld V × List (ArrOut V))
  | [] => .ok (w, [])
  | op :: ops =>
    match w.step L op with
    | .error u => .error u
    | .ok (w', out) =>
      match run w' ops with
      | .error u => .error u
      | .ok (w'', outs) => .ok (w'', out :: outs)

end ArrWorld

/-! ### Specification: lists of bounded length -/
namespace ArrSpec
variable {V : Type}

/-- A bounded list per variable: capacity and elements. -/
abbrev State (V : Type) := Nat → Option (Nat × List (Cell V))

/-- Replace `new.length` elements of a list from position `off`, extending it if needed. -/
def overwrite (l new : List (Cell V)) (off : Nat) : List (Cell V) := l.take off ++ new ++ l.drop (off + new.length)

/-- All members are trivial. -/
def trivial (L : Layout V) : Bool := L.all fun m => m.ty.triv

/-- The size error. -/
def tooLarge : Exc := .outOfRange "insufficient capacity for assignment (other soa_array too large)"

/-- What `load` does to the list `l` of capacity `N`, given the list of the source. -/
def load (N : Nat) (l src : List (Cell V)) (j num off : Nat) : Option (List (Cell V) × ArrOut V) :=
  if off ≤ l.length ∧ j + num ≤ src.length ∧ num + off < 2 ^ 64 then
    if num + off ≤ N then some (overwrite l ((src.drop j).take num) off, .unit) else some (l, .threw tooLarge)
  else none

/-- Effect and result of each operation; `none` if the caller violated the contract. -/
def step (L : Layout V) (σ : State V) : ArrOp V → Option (State V × ArrOut V)
  | .new s N n v =>
    match σ s with
    | some _ => none
    | none => if n ≤ N ∧ N < 2 ^ 31 then some (ArrWorld.upd σ s (some (N, List.replicate n v)), .unit) else none
  | .copy s N t cst =>
    match σ s, σ t with
    | none, some (M, l) =>
      if N < 2 ^ 31 ∧ (cst = true → N = M → trivial L = true) then
        if l.length ≤ N then some (ArrWorld.upd σ s (some (N, l)), .unit) else some (σ, .threw tooLarge)
      else none
    | _, _ => none
  | .assign s t cst =>
    match σ s, σ t with
    | some (N, _), some (M, l) =>
      if cst = true → N = M → trivial L = true then
        if l.length ≤ N then some (ArrWorld.upd σ s (some (N, l)), .unit) else some (σ, .threw tooLarge)
      else none
    | _, _ => none
  | .destroy s => match σ s with | some _ => some (ArrWorld.upd σ s none, .unit) | none => none
  | .set s i c =>
    match σ s with
    | some (N, l) => if 0 ≤ i ∧ i < l.length then some (ArrWorld.upd σ s (some (N, l.set i.toNat c)), .unit) else none
    | none => none
  | .get s i t =>
    match σ s with
    | some (_, l) =>
      if i < 0 then none else match l[i.toNat]? with
        | some c => some (σ, .cells [overlay L c t])
        | none => none
    | none => none
  | .poke s i r k v =>
    match σ s, L[r]? with
    | some (N, l), some m =>
      if i < 0 ∨ ¬ k < m.elems then none else match l[i.toNat]? with
        | some c => some (ArrWorld.upd σ s (some (N, l.set i.toNat (c.set r k v))), .unit)
        | none => none
    | _, _ => none
  | .peek s i r k =>
    match σ s, L[r]? with
    | some (_, l), some m =>
      if i < 0 ∨ ¬ k < m.elems then none else match l[i.toNat]? with
        | some c => some (σ, .val (c r k))
        | none => none
    | _, _ => none
  | .push s c =>
    match σ s with
    | some (N, l) =>
      if l.length < N then some (ArrWorld.upd σ s (some (N, l ++ [c])), .unit)
      else some (σ, .threw (.outOfRange "capacity exceeded"))
    | none => none
  | .pop s =>
    match σ s with
    | some (N, l) =>
      if l = [] then some (σ, .threw (.outOfRange "soa_array is already empty"))
      else some (ArrWorld.upd σ s (some (N, l.dropLast)), .unit)
    | none => none
  | .clear s => match σ s with | some (N, _) => some (ArrWorld.upd σ s (some (N, [])), .unit) | none => none
  | .back s t =>
    match σ s with
    | some (_, l) => match l.getLast? with
      | some c => some (σ, .cells [overlay L c t])
      | none => none
    | none => none
  | .load s t j num off =>
    match σ s, σ t with
    | some (N, l), some (_, src) =>
      if s = t → j + num ≤ off ∨ off + num ≤ j then
        (load N l src j num off).map fun p => (ArrWorld.upd σ s (some (N, p.1)), p.2)
      else none
    | _, _ => none
  | .append s t j num =>
    match σ s, σ t with
    | some (N, l), some (_, src) => (load N l src j num l.length).map fun p => (ArrWorld.upd σ s (some (N, p.1)), p.2)
    | _, _ => none
  | .size s => match σ s with | some (_, l) => some (σ, .nat l.length) | none => none
  | .capacity s => match σ s with | some (N, _) => some (σ, .nat N) | none => none
  | .byteSize s =>
    match σ s with
    | some (_, l) => some (σ, .nat (l.length * (L.map fun m => m.ty.size * m.elems).sum))
    | none => none
  | .iter s t => match σ s with | some (_, l) => some (σ, .cells (l.map fun c => overlay L c t)) | none => none
  | .swap s t =>
    match σ s, σ t with
    | some (N, l), some (M, l') =>
      if N = M ∧ trivial L = true then some (ArrWorld.upd (ArrWorld.upd σ s (some (N, l'))) t (some (M, l)), .unit) else none
    | _, _ => none

/-- A program respecting all contracts, with everything it observes. -/
def run (L : Layout V) (σ : State V) : List (ArrOp V) → Option (State V × List (ArrOut V))
  | [] => some (σ, [])
  | op :: ops =>
    match step L σ op with
    | none => none
    | some (σ', out) =>
      match run L σ' ops with
      | none => none
      | some (σ'', outs) => some (σ'', out :: outs)

/-- No arrays. -/
def start : State V := fun _ => none

end ArrSpec
end LFA
