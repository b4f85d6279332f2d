import Verif.ThrowingArray
import Verif.SoaVector

/-
  soa_vectors whose members throw: what is left behind if the constructor or the assignment operator of a member object throws an
  exception in the middle of a member function of soa_vector. Conventions as in Verif/Throwing.lean: the exception is thrown by the
  `n`-th construction or assignment of a member object, an assignment which throws leaves `u` in its target (or the former value).
  Constructors of the structs themselves (`T()` in `pop_back`) do not throw.
-/
set_option linter.unusedSectionVars false
namespace LFA
namespace Throwing
namespace Vec

variable {V : Type} [DecidableEq V] (C : Cfg V)

/-- A grid under construction (soa_grid.hpp:77-94). -/
def blank : Grid := ⟨⟨0, 0, 0⟩, none, none, none, none, none⟩

/-- An exception leaves a block or constructor in which the grid `ng` has been constructed, so that it is destroyed. -/
def unwound (ng : Grid) (h : Heap V) : Except UB (Option (Heap V)) :=
  match ng.dtor C h with
  | .ok _ h => .ok (some h)
  | .throw _ _ => .error .terminate
  | .ub u => .error u

/-- An exception out of the constructor of a grid: there is no grid to be destroyed. -/
def newGrid (m n : Nat) (u : Option V) (h : Heap V) : Except UB (Option (Heap V)) :=
  (Throwing.resize C blank ⟨m, 1, 1⟩ n u h).map (Option.map fun p => p.2)

/-- `soa_vector(count, value)` (soa_vector.hpp:54-60): if `broadcast` throws then the grid is destroyed. -/
def newFill (m : Nat) (c : Cell V) (n : Nat) (u : Option V) (h : Heap V) : Except UB (Option (Heap V)) :=
  let k := constructed C blank ⟨m, 1, 1⟩
  if n < k then newGrid C m n u h
  else
    match Grid.new C ⟨m, 1, 1⟩ h with
    | .ub e => .error e
    | .throw _ _ => .ok none
    | .ok _ (g, h) =>
      match callback C g (fun e => setList C.L e 0 [c] 0 0 0 m) (fun b => b) (n - k) u h with
      | .error e => .error e
      | .ok none => .ok none
      | .ok (some h) => unwound C g h

/-- `reserve(new_count)` (soa_vector.hpp:111-125): construction of the new grid, its enlargement, and copying all may throw; the
    vector itself is modified by `swap` only. -/
def reserve (v : SVec) (m n : Nat) (u : Option V) (h : Heap V) : Except UB (Option (Heap V)) :=
  let k := constructed C blank ⟨m, 1, 1⟩
  if n < k then newGrid C m n u h
  else
    match Grid.new C ⟨m, 1, 1⟩ h with
    | .ub e => .error e
    | .throw _ _ => .ok none
    | .ok _ (ng, h) =>
      match ng.ex with
      | none => .error .uninitField
      | some ex =>
        let k' := constructed C ng ⟨ex, 1, 1⟩
        if n - k < k' then
          match Throwing.resize C ng ⟨ex, 1, 1⟩ (n - k) u h with
          | .error e => .error e
          | .ok none => .ok none
          | .ok (some (ng, h)) => unwound C ng h
        else
          match ng.resize C ⟨ex, 1, 1⟩ h with
          | .ub e => .error e
          | .throw _ _ => .ok none
          | .ok _ (ng, h) =>
            match v.g.ex, v.g.data.bind h.blk with
            | none, _ => .error .uninitField
            | _, none => .error .dangling
            | some oex, some src =>
              match callback C ng (fun e => loadList C.L e oex [⟨0, 0, 0, v.n⟩] 0) (fun _ => src) (n - k - k') u h with
              | .error e => .error e
              | .ok none => .ok none
              | .ok (some h) => unwound C ng h

/-- Number of objects which `reserve` constructs or assigns to if it does not throw. -/
def reserveOps (v : SVec) (m : Nat) : Nat :=
  match selectSizes C.tr ⟨m, 1, 1⟩ with
  | .error _ => 0
  | .ok e => constructed C blank ⟨m, 1, 1⟩ + constructed C { blank with dim := ⟨m, 1, 1⟩ } ⟨e.x, 1, 1⟩ +
      (loadList C.L e e.x [⟨0, 0, 0, v.n⟩] 0).length

/-- `set(index, element)` (soa_vector.hpp:67-72). -/
def set (v : SVec) (i : Nat) (c : Cell V) (n : Nat) (u : Option V) (h : Heap V) : Except UB (Option (VS V)) :=
  (callback C v.g (fun e => setList C.L e 1 [c] i 0 0 1) (fun b => b) n u h).map (Option.map fun h => (v, h))

/-- `push_back(element)` (soa_vector.hpp:141-151): `++count` comes last. -/
def push (v : SVec) (c : Cell V) (n : Nat) (u : Option V) (h : Heap V) : Except UB (Option (VS V)) :=
  match v.g.ex with
  | none => .error .uninitField
  | some ex =>
    if v.n = ex then
      let k := reserveOps C v (grow v.n)
      if n < k then (reserve C v (grow v.n) n u h).map (Option.map fun h => (v, h))
      else
        match v.reserve C (grow v.n) h with
        | .ub e => .error e
        | .throw _ _ => .ok none
        | .ok _ (v, h) => set C v v.n c (n - k) u h
    else set C v v.n c n u h

/-- `pop_back()` (soa_vector.hpp:153-160): `--count` comes first. -/
def pop (v : SVec) (td : Cell V) (n : Nat) (u : Option V) (h : Heap V) : Except UB (Option (VS V)) :=
  let v : SVec := ⟨v.g, if v.n = 0 then 18446744073709551615 else v.n - 1⟩
  set C v v.n td n u h

/-- The state after an operation in which the `n`-th construction or assignment of a member object throws, `none` if it does not throw
    for that reason. `get` assigns to memory of the caller, which is not part of the state. -/
def step (w : VecWorld V) (n : Nat) (u : Option V) : VecOp V → Except UB (Option (VecWorld V))
  | .new s m => ctor s (newGrid C m n u w.h)
  | .newFill s m c => ctor s (newFill C m c n u w.h)
  | .copy s t => withV t fun o => ctor s (Throwing.copyCtor C o.g n u w.h)
  -- the implicit assignment operator assigns to the grid first
  | .assign s t => withV s fun v => withV t fun o => upd s ((Throwing.assign C v.g o.g n u w.h).map (Option.map fun p => (⟨p.1, v.n⟩, p.2)))
  | .set s i c => withV s fun v => upd s (set C v i c n u w.h)
  | .push s c => withV s fun v => upd s (push C v c n u w.h)
  | .pop s td => withV s fun v => upd s (pop C v td n u w.h)
  | .reserve s m => withV s fun v => upd s ((reserve C v m n u w.h).map (Option.map fun h => (v, h)))
  | .resize s m => withV s fun v =>
      if m > v.g.dim.x then upd s ((reserve C v m n u w.h).map (Option.map fun h => (v, h))) else .ok none
  | .poke s x X r k val => withV s fun v => upd s ((callback C v.g (fun e =>
      match C.L[r]? with
      | none => []
      | some m => [.assign (((accAt e (genIndex e x 0 0)).shift X 0 0).userRef C.L r m k) m.ty val]) (fun b => b) n u w.h).map
        (Option.map fun h => (v, h)))
  | .get s i t => (w.step C (.get s i t)).map fun _ =>
      match (memKeys C.L)[n]? with
      | some q => if q.2.1.ty.triv then none else some w
      | none => none
  | .destroy _ | .clear _ | .size _ | .capacity _ | .empty _ | .peek _ _ _ _ _ => .ok none
where
  /-- Use of a variable. -/
  withV (s : Nat) (f : SVec → Except UB (Option (VecWorld V))) : Except UB (Option (VecWorld V)) :=
    match w.v s with
    | none => .error .dangling
    | some v => f v
  /-- A constructor: there is no vector. -/
  ctor (s : Nat) (r : Except UB (Option (Heap V))) : Except UB (Option (VecWorld V)) :=
    match w.v s with
    | some _ => .error .lifetime
    | none => r.map (Option.map fun h => ⟨h, w.v⟩)
  /-- A member function. -/
  upd (s : Nat) (r : Except UB (Option (VS V))) : Except UB (Option (VecWorld V)) :=
    r.map (Option.map fun p => ⟨p.2, World.upd w.v s (some p.1)⟩)

/-- A program in which members may throw: for each operation, whether and where a member is going to throw. The exception is caught
    right behind the operation (`none` in the list of observations); an operation which does not throw proceeds as usual. -/
def run (w : VecWorld V) : List (VecOp V × Option (Nat × Option V)) → Except UB (VecWorld V × List (Option (ArrOut V)))
  | [] => .ok (w, [])
  | (op, f) :: ops =>
    match thrown op f with
    | .error e => .error e
    | .ok (some w') => (run w' ops).map fun p => (p.1, none :: p.2)
    | .ok none =>
      match w.step C op with
      | .error e => .error e
      | .ok (w', out) => (run w' ops).map fun p => (p.1, some out :: p.2)
where
  /-- The exception, if any. -/
  thrown (op : VecOp V) (f : Option (Nat × Option V)) : Except UB (Option (VecWorld V)) :=
    match f with
    | none => .ok none
    | some (n, u) => step C w n u op

end Vec
end Throwing

/-! ### Specification -/
namespace VecSpec
variable {V : Type} (C : Cfg V) (dv : V)
open ArrSpec (Asg objs asgStruct asgRow upTo throws byStruct byObj)

/-- The assignments `ts`, in order. -/
def patch (cells : Nat → Option (Cell V)) (ts : List (Asg V)) : Nat → Option (Cell V) :=
  ts.foldl (fun cs t i => if i = t.1.1 then (cs i).map fun c => c.set t.1.2.1 t.1.2.2 t.2 else cs i) cells

/-- The first `m` cells. -/
def row (a : AVec V) (m : Nat) : List (Cell V) := (List.range m).map fun i => (a.cells i).getD (dfltCell C.L dv)

/-- Number of objects constructed when the capacity becomes `m` and there is room for `ext` cells. -/
def built (m ext : Nat) : Nat := (if m = ext then m else m + ext) * (objs C.L).length

/-- A constructor of a member throws: what follows is not specified (see the theorems about leaks). No exception otherwise. -/
def failCtor {α : Type} (num n : Nat) : Option (Option α) := if throws C.L (byStruct C.L num) n then none else some none

/-- `reserve`: the vector is what it was if copying the elements throws. -/
def failReserve (a : AVec V) (m n : Nat) : Option (Option (AVec V)) :=
  match selectSizes C.tr ⟨m, 1, 1⟩ with
  | .error _ => some none
  | .ok e =>
    if a.known = true ∧ a.n ≤ e.x ∧ a.n ≤ a.ext ∧ (∀ i, i < a.n → (a.cells i).isSome = true) then
      if n < built C m e.x then failCtor C (if m = e.x then m else m + e.x) n
      else some (if throws C.L (byObj C.L a.n) (n - built C m e.x) then some a else none)
    else none

/-- Assignment of a struct. -/
def failSet (a : AVec V) (i : Nat) (c : Cell V) (n : Nat) (u : Option V) : Option (Option (AVec V)) :=
  if Writable C.L a i then
    some (if throws C.L (objs C.L) n then some { a with cells := patch a.cells (upTo (asgStruct C.L i c) n u) } else none)
  else none

/-- `push_back`: the size never changes. -/
def failPush (a : AVec V) (c : Cell V) (n : Nat) (u : Option V) : Option (Option (AVec V)) :=
  if a.known = true then
    if a.n = a.ext then
      match selectSizes C.tr ⟨grow a.n, 1, 1⟩, reserve C dv a (grow a.n) with
      | .error _, _ => some none
      | .ok e, some (a', _) =>
        let k := built C (grow a.n) e.x + a.n * (objs C.L).length
        if n < k then failReserve C a (grow a.n) n else failSet C a' a.n c (n - k) u
      | .ok _, none => none
    else failSet C a a.n c n u
  else none

/-- An operation on an existing vector. -/
def failOn (σ : State V) (s : Nat) (f : AVec V → Option (Option (AVec V))) : Option (Option (State V)) :=
  match σ s with
  | none => none
  | some a => (f a).map (Option.map fun a' => World.upd σ s (some a'))

/-- The state after an operation in which the `n`-th construction or assignment of a member throws. Inner `none`: no exception. Outer
    `none`: the caller violated the contract, as in `step`, or the exception came out of the constructor of a member. -/
def fail (σ : State V) (n : Nat) (u : Option V) : VecOp V → Option (Option (State V))
  | .new s m =>
    match σ s, selectSizes C.tr ⟨m, 1, 1⟩ with
    | some _, _ => none
    | none, .error _ => some none
    | none, .ok _ => failCtor C m n
  | .newFill s m _ =>
    match σ s, selectSizes C.tr ⟨m, 1, 1⟩ with
    | some _, _ => none
    | none, .error _ => some none
    | none, .ok _ =>
      let k := m * (objs C.L).length
      if n < k then failCtor C m n else some (if throws C.L (byStruct C.L m) (n - k) then some σ else none)
  | .copy s t =>
    match σ s, σ t with
    | none, some o => if throws C.L (byStruct C.L o.dim ++ byObj C.L o.dim) n then none else some none
    | _, _ => none
  | .assign s t =>
    match σ s, σ t with
    | some a, some o =>
      let ts := asgRow C.L 0 (row C dv o o.dim)
      if a.dim = o.dim then
        some (if throws C.L (byObj C.L o.dim) n then some (World.upd σ s (some { a with cells := patch a.cells (upTo ts n u) })) else none)
      else
        let k := o.dim * (objs C.L).length
        if n < k then failCtor C o.dim n
        else
          -- the size is the old one, the capacity is not
          some (if throws C.L (byObj C.L o.dim) (n - k) then
            some (World.upd σ s (some ⟨o.dim, o.ext, true, a.n,
              patch (fun i => if i < o.dim then some (dfltCell C.L dv) else none) (upTo ts (n - k) u)⟩)) else none)
    | _, _ => none
  | .set s i c => failOn σ s fun a => failSet C a i c n u
  | .push s c => failOn σ s fun a => failPush C dv a c n u
  | .pop s td => failOn σ s fun a =>
      if 0 < a.n then (failSet C a (a.n - 1) td n u).map (Option.map fun a' => { a' with n := a.n - 1 }) else none
  | .reserve s m => failOn σ s fun a => failReserve C a m n
  | .resize s m => failOn σ s fun a => if m > a.dim then failReserve C a m n else some none
  | .poke s x X r k val => failOn σ s fun a =>
      match C.L[r]?, a.cells (x + X).toNat with
      | some m, some _ =>
        if 0 ≤ x + X ∧ k < m.elems then
          some (if throws C.L [(r, k)] n then some { a with cells := patch a.cells (upTo [(((x + X).toNat, r, k), val)] n u) } else none)
        else none
      | _, _ => none
  | .get s i _ => failOn σ s fun a => (a.cells i).map fun _ => if throws C.L (objs C.L) n then some a else none
  | _ => some none

/-- A program in which members may throw, cf. `Throwing.Vec.run`; `none` if the contract is violated. -/
def runFail (σ : State V) : List (VecOp V × Option (Nat × Option V)) → Option (State V × List (Option (ArrOut V)))
  | [] => some (σ, [])
  | (op, f) :: ops =>
    match thrown op f with
    | none => none
    | some (some σ') => (runFail σ' ops).map fun p => (p.1, none :: p.2)
    | some none =>
      match step C dv σ op with
      | none => none
      | some (σ', out) => (runFail σ' ops).map fun p => (p.1, some out :: p.2)
where
  /-- The exception, if any. -/
  thrown (op : VecOp V) (f : Option (Nat × Option V)) : Option (Option (State V)) :=
    match f with
    | none => some none
    | some (n, u) => fail C dv σ n u op

end VecSpec
end LFA
