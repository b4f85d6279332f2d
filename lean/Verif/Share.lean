import Verif.SoaArray
import Verif.SoaVector

/-
  Several threads of the host which share soa_arrays or soa_vectors: accesses to members and to whole structs through accessors, which
  come from `operator[]` of soa_array (soa_array.hpp:118-158), or from functors run by `callback` of soa_vector (soa_vector.hpp:172-186).

  Simplifications: a read or write of one member is one step, and threads see each other's writes in the order of the schedule. For
  programs without data races C++ promises just that.
-/
set_option linter.unusedSectionVars false
namespace LFA
namespace Share

/-- Member `r` (element `k` of an array) of the element with index `i` in container `s`. -/
structure Loc where
  s : Nat
  i : Int
  (r k : Nat)
deriving DecidableEq

/-- The code of a thread: reads and writes of members, depending on what has been read before, steps which access no container, and a
    result. `P` are the expressions which refer to members. -/
inductive Prog (P V ρ : Type) where
  | ret (v : ρ)
  | tau (c : Prog P V ρ)
  | peek (p : P) (c : V → Prog P V ρ)
  | poke (p : P) (v : V) (c : Prog P V ρ)

/-- The next step of a thread, given how members are read and written. -/
def advance {W P V ρ : Type} (rd : W → P → Except UB V) (wr : W → P → V → Except UB W) (w : W) : Prog P V ρ → Except UB (W × Prog P V ρ)
  | .ret v => .ok (w, .ret v)
  | .tau c => .ok (w, c)
  | .peek p c =>
    match rd w p with
    | .ok v => .ok (w, c v)
    | .error u => .error u
  | .poke p v c =>
    match wr w p v with
    | .ok w' => .ok (w', c)
    | .error u => .error u

/-- Threads take steps in the order given by a schedule. -/
def exec {W P V ρ : Type} (rd : W → P → Except UB V) (wr : W → P → V → Except UB W) (w : W) (T : Nat → Prog P V ρ) :
    List Nat → Except UB (W × (Nat → Prog P V ρ))
  | [] => .ok (w, T)
  | i :: sched =>
    match advance rd wr w (T i) with
    | .error u => .error u
    | .ok (w', t) => exec rd wr w' (World.upd T i t) sched

variable {V : Type} [DecidableEq V] {ρ : Type}

/-! ### soa_array -/
namespace Arr
variable (L : Layout V)

/-- `array[i].m()` or `array[i].m()[k]` as an rvalue. -/
def rd (w : ArrWorld V) (p : Loc) : Except UB V :=
  match w.step L (.peek p.s p.i p.r p.k) with
  | .ok (_, .val v) => .ok v
  | .ok _ => .error .indet
  | .error u => .error u

/-- `array[i].m() = v` or `array[i].m()[k] = v`. -/
def wr (w : ArrWorld V) (p : Loc) (v : V) : Except UB (ArrWorld V) :=
  match w.step L (.poke p.s p.i p.r p.k v) with
  | .ok (w', _) => .ok w'
  | .error u => .error u

/-- Threads which share arrays. -/
def exec (w : ArrWorld V) (T : Nat → Prog Loc V ρ) (sched : List Nat) : Except UB (ArrWorld V × (Nat → Prog Loc V ρ)) :=
  Share.exec (rd L) (wr L) w T sched

/-- The bytes of a reference in the storage of array `p.s`: address and number of bytes (detail/macros.hpp:92-125). -/
def bytes (w : ArrWorld V) (p : Loc) : Option (Int × Nat) :=
  match w.a p.s, L[p.r]? with
  | some a, some m => some ((SArr.acc a.N p.i).arrayRef L p.r m p.k, m.ty.size)
  | _, _ => none

/-- The members of a struct, in the order of their registration. -/
def keys : Layout V → Nat → List (Nat × Nat)
  | [], _ => []
  | m :: ms, r => (List.range m.elems).map (fun k => (r, k)) ++ keys ms (r + 1)

/-- `array[i] << c` (macros.hpp:233-242, detail/macros.hpp:139-159), one member after the other. -/
def put (s : Nat) (i : Int) (c : Cell V) (t : Prog Loc V ρ) : List (Nat × Nat) → Prog Loc V ρ
  | [] => t
  | (r, k) :: l => .poke ⟨s, i, r, k⟩ (c r k) (put s i c t l)

/-- `array[i] >> c` (macros.hpp:244-252, detail/macros.hpp:161-181), one member after the other. `c` is the struct before, the thread goes on
    with what `t` yields for the struct after. -/
def take (s : Nat) (i : Int) (t : Cell V → Prog Loc V ρ) : List (Nat × Nat) → Cell V → Prog Loc V ρ
  | [], c => t c
  | (r, k) :: l, c => .peek ⟨s, i, r, k⟩ fun v => take s i t l (c.set r k v)

end Arr

/-! ### soa_vector -/
namespace Vec
variable (C : Cfg V)

/-- A member reached through the accessor of a functor: vector variable, index, constant offset, member and array index. -/
structure Ref where
  s : Nat
  (x X : Int)
  (r k : Nat)

/-- The location of a reference. -/
def Ref.loc (p : Ref) : Loc := ⟨p.s, p.x + p.X, p.r, p.k⟩

/-- The member as an rvalue. -/
def rd (w : VecWorld V) (p : Ref) : Except UB V :=
  match w.step C (.peek p.s p.x p.X p.r p.k) with
  | .ok (_, .val v) => .ok v
  | .ok _ => .error .indet
  | .error u => .error u

/-- An assignment to the member. -/
def wr (w : VecWorld V) (p : Ref) (v : V) : Except UB (VecWorld V) :=
  match w.step C (.poke p.s p.x p.X p.r p.k v) with
  | .ok (w', _) => .ok w'
  | .error u => .error u

/-- Threads which share vectors. -/
def exec (w : VecWorld V) (T : Nat → Prog Ref V ρ) (sched : List Nat) : Except UB (VecWorld V × (Nat → Prog Ref V ρ)) :=
  Share.exec (rd C) (wr C) w T sched

/-- The bytes of a reference: buffer, address in the buffer and number of bytes (macros.hpp:207-215, detail/macros.hpp:92-125). -/
def bytes (w : VecWorld V) (p : Ref) : Option (Nat × Int × Nat) :=
  match w.v p.s, C.L[p.r]? with
  | some v, some m =>
    match selectSizes C.tr v.g.dim, v.g.data with
    | .ok e, some id => some (id, ((accAt e (genIndex e p.x 0 0)).shift p.X 0 0).userRef C.L p.r m p.k, m.ty.size)
    | _, _ => none
  | _, _ => none

end Vec
end Share
end LFA
