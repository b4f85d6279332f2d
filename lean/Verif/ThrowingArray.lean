import Verif.Throwing
import Verif.SoaArray

/-
  soa_arrays whose members throw: what is left behind if the constructor or the assignment operator of a member object throws an
  exception in the middle of a member function of soa_array. Conventions as in Verif/Throwing.lean: the exception is thrown by the
  `n`-th construction or assignment of a member object, an assignment which throws leaves `u` in its target (or the former value).
-/
set_option linter.unusedSectionVars false
namespace LFA
namespace Throwing
namespace Arr

variable {V : Type} [DecidableEq V] (L : Layout V)

/-! ### The loops as lists of operations -/

/-- `construct_all_instances` (soa_array.hpp:274-281, detail/macros.hpp:275-293). -/
def constructList (N : Nat) : List (MemOp V) := (List.range N).flatMap fun (i : Nat) => constructOps L (SArr.acc N i)

/-- The loop of `soa_array(elements, value)` (soa_array.hpp:66-68, detail/macros.hpp:140-159). -/
def fillList (N n : Nat) (v : Cell V) : List (MemOp V) := (List.range n).flatMap fun (i : Nat) => setOps L (SArr.acc N i) v

/-- `copy_members` as called by `copy_in` (soa_array.hpp:283-294, detail/macros.hpp:250-272): target of capacity `N`, source of
    capacity `M`, `m` structs. -/
def copyList (N M m : Nat) : List (MemOp V) :=
  (memKeys L).flatMap fun q => (List.range m).map (copyOp L (SArr.acc N 0) (SArr.acc M 0) q)

/-- `accessor.load` as called by `load` (soa_array.hpp:183-196, detail/macros.hpp:183-214). -/
def loadList (N off M j num : Nat) : List (MemOp V) :=
  (memKeys L).flatMap fun q => (List.range num).map (loadOp L (SArr.accSz N off) j M q)

/-! ### Member functions of soa_array -/

/-- The state after a member function in which the `n`-th construction or assignment of a member object throws, `none` if it does not
    throw for that reason. If a constructor throws then there is no array and its destructor will not run, but the storage held
    objects. `get` (`accessor >> value`), `back` and the traversal assign to memory of the caller, which is not part of the state. The
    implicitly defined copy operations, `swap`, `pop_back` and `clear` do not call any member function of a member; the destructors of
    members do not throw. -/
def step (w : ArrWorld V) (n : Nat) (u : Option V) : ArrOp V → Except UB (Option (ArrWorld V))
  | .new s N k v =>
    match w.a s with
    | some _ => .error .lifetime
    | none =>
      lost (upTo (fun b => b) (constructList L N ++ fillList L N (toInt32 k).toNat v) n u (Block.fresh (aggSize L * N)))
  | .copy s N t cst =>
    match w.a s with
    | some _ => .error .lifetime
    | none => withA t fun o =>
      if cst = true ∧ N = o.N then .ok none
      else lost (upTo (fun _ => o.data) (constructList L N ++ if o.n > N then [] else copyList L N o.N o.n) n u
        (Block.fresh (aggSize L * N)))
  | .assign s t cst => withA s fun a => withA t fun o =>
      if cst = true ∧ a.N = o.N then .ok none
      else if o.n > a.N then .ok none
      else wr s a (upTo (ArrWorld.srcOf s t o) (copyList L a.N o.N o.n) n u a.data)
  | .set s i c => withA s fun a => wr s a (upTo (fun b => b) (setOps L (SArr.acc a.N i) c) n u a.data)
  | .poke s i r k v => withA s fun a =>
      match L[r]? with
      | none => .error .oob
      | some m => wr s a (upTo (fun b => b) [.assign ((SArr.acc a.N i).arrayRef L r m k) m.ty v] n u a.data)
  | .push s c => withA s fun a =>
      if a.n ≥ a.N then .ok none
      else wr s a (upTo (fun b => b) (setOps L (SArr.accSz a.N a.n) c) n u a.data) -- before `++elements`
  | .load s t j num off => withA s fun a => withA t fun o => load s t a o j num off
  | .append s t j num => withA s fun a => withA t fun o => load s t a o j num a.n
  | .get s i t => observed (w.step L (.get s i t)) 1
  | .back s t => observed (w.step L (.back s t)) 1
  | .iter s t => withA s fun a => observed (w.step L (.iter s t)) a.n
  | .destroy _ | .peek _ _ _ _ | .pop _ | .clear _ | .size _ | .capacity _ | .byteSize _ | .swap _ _ => .ok none
where
  /-- Use of an array variable. -/
  withA (s : Nat) (f : SArr V → Except UB (Option (ArrWorld V))) : Except UB (Option (ArrWorld V)) :=
    match w.a s with
    | none => .error .dangling
    | some a => f a
  /-- Storage of an array whose constructor throws. -/
  lost (r : Except UB (Option (Block V))) : Except UB (Option (ArrWorld V)) := r.map (Option.map fun b => ⟨w.a, b :: w.gone⟩)
  /-- Storage of the array `a` in slot `s`; its size has not been changed yet. -/
  wr (s : Nat) (a : SArr V) (r : Except UB (Option (Block V))) : Except UB (Option (ArrWorld V)) :=
    r.map (Option.map fun b => ⟨ArrWorld.upd w.a s (some { a with data := b }), w.gone⟩)
  /-- `load(accessor, num, offset)` (soa_array.hpp:183-196): the size is updated last. -/
  load (s t : Nat) (a o : SArr V) (j num off : Nat) : Except UB (Option (ArrWorld V)) :=
    if max a.n ((num + off) % 2 ^ 64) > a.N then .ok none
    else wr s a (upTo (ArrWorld.srcOf s t o) (loadList L a.N off o.N j num) n u a.data)
  /-- An exception while the members of `num` structs are copied to the caller (detail/macros.hpp:161-181). -/
  observed (r : Except UB (ArrWorld V × ArrOut V)) (num : Nat) : Except UB (Option (ArrWorld V)) :=
    r.map fun _ =>
      match ((List.range num).flatMap fun _ => memKeys L)[n]? with
      | some q => if q.2.1.ty.triv then none else some w
      | none => none

/-- A program in which members may throw: for each operation, whether and where a member is going to throw. The exception is caught
    right behind the operation (`none` in the list of observations); an operation which does not throw proceeds as usual. -/
def run (w : ArrWorld V) : List (ArrOp V × Option (Nat × Option V)) → Except UB (ArrWorld V × List (Option (ArrOut V)))
  | [] => .ok (w, [])
  | (op, f) :: ops =>
    match thrown op f with
    | .error e => .error e
    | .ok (some w') => (run w' ops).map fun p => (p.1, none :: p.2)
    | .ok none =>
      match w.step L op with
      | .error e => .error e
      | .ok (w', out) => (run w' ops).map fun p => (p.1, some out :: p.2)
where
  /-- The exception, if any. -/
  thrown (op : ArrOp V) (f : Option (Nat × Option V)) : Except UB (Option (ArrWorld V)) :=
    match f with
    | none => .ok none
    | some (n, u) => step L w n u op

end Arr
end Throwing

/-! ### Specification -/
namespace ArrSpec
variable {V : Type}

/-- An assignment to an object: number of the struct, member, array element; new value. -/
abbrev Asg (V : Type) := (Nat × Nat × Nat) × V

/-- The objects of a struct in the order of their registration: member and array element. -/
def objs (L : Layout V) : List (Nat × Nat) := L.zipIdx.flatMap fun p => (List.range p.1.elems).map fun k => (p.2, k)

/-- Assignments to all objects of one struct, in order. -/
def asgStruct (L : Layout V) (i : Nat) (c : Cell V) : List (Asg V) := (objs L).map fun p => ((i, p.1, p.2), c p.1 p.2)

/-- Assignments to `num` structs from number `off` on, the same object of all structs first. -/
def asgRow (L : Layout V) (off : Nat) (new : List (Cell V)) : List (Asg V) :=
  (objs L).flatMap fun p => new.zipIdx.map fun q => ((off + q.2, p.1, p.2), q.1 p.1 p.2)

/-- The assignments `ts`, in order, as far as the structs exist. -/
def patch (l : List (Cell V)) (ts : List (Asg V)) : List (Cell V) :=
  ts.foldl (fun l t => l.modify t.1.1 fun c => c.set t.1.2.1 t.1.2.2 t.2) l

/-- The assignments which took effect if the `n`-th one of `ts` throws, leaving `u`. -/
def upTo (ts : List (Asg V)) (n : Nat) (u : Option V) : List (Asg V) :=
  ts.take n ++ match ts[n]?, u with
    | some t, some v => [(t.1, v)]
    | _, _ => []

/-- The `n`-th operation throws, if the operations concern the objects `ks`: it does unless the type is trivial. -/
def throws (L : Layout V) (ks : List (Nat × Nat)) (n : Nat) : Bool :=
  match ks[n]? with
  | some p => match L[p.1]? with
    | some m => !m.ty.triv
    | none => false
  | none => false

/-- Struct by struct. -/
def byStruct (L : Layout V) (num : Nat) : List (Nat × Nat) := (List.range num).flatMap fun _ => objs L

/-- Object by object. -/
def byObj (L : Layout V) (num : Nat) : List (Nat × Nat) := (objs L).flatMap fun p => List.replicate num p

/-- What `load` does if a member throws. -/
def failLoad (L : Layout V) (N : Nat) (l src : List (Cell V)) (j num off n : Nat) (u : Option V) : Option (Option (List (Cell V))) :=
  if off ≤ l.length ∧ j + num ≤ src.length ∧ num + off < 2 ^ 64 then
    if num + off ≤ N ∧ throws L (byObj L num) n = true then some (some (patch l (upTo (asgRow L off ((src.drop j).take num)) n u)))
    else some none
  else none

/-- The state after an operation in which the `n`-th construction or assignment of a member throws: the list of a failed `push_back`
    is what it was, sizes never change, assignments to existing elements took effect up to the one which throws. Inner `none`: no
    exception. Outer `none`: the caller violated the contract, as in `step`. -/
def fail (L : Layout V) (σ : State V) (n : Nat) (u : Option V) : ArrOp V → Option (Option (State V))
  | .new s N k _ =>
    match σ s with
    | some _ => none
    | none =>
      if k ≤ N ∧ N < 2 ^ 31 then
        -- there is no array afterwards
        some (if throws L (byStruct L N ++ byStruct L k) n then some σ else none)
      else none
  | .copy s N t cst =>
    match σ s, σ t with
    | none, some (M, l) =>
      if N < 2 ^ 31 ∧ (cst = true → N = M → trivial L = true) then
        if cst = true ∧ N = M then some none
        else some (if throws L (byStruct L N ++ if l.length ≤ N then byObj L l.length else []) n then some σ else none)
      else none
    | _, _ => none
  | .assign s t cst =>
    match σ s, σ t with
    | some (N, l), some (M, l') =>
      if cst = true → N = M → trivial L = true then
        if cst = true ∧ N = M then some none
        else if l'.length ≤ N ∧ throws L (byObj L l'.length) n = true then
          some (some (ArrWorld.upd σ s (some (N, patch l (upTo (asgRow L 0 l') n u)))))
        else some none
      else none
    | _, _ => none
  | .set s i c =>
    match σ s with
    | some (N, l) =>
      if 0 ≤ i ∧ i < l.length then
        some (if throws L (objs L) n then some (ArrWorld.upd σ s (some (N, patch l (upTo (asgStruct L i.toNat c) n u)))) else none)
      else none
    | none => none
  | .poke s i r k v =>
    match σ s, L[r]? with
    | some (N, l), some m =>
      if i < 0 ∨ ¬ k < m.elems ∨ ¬ i < l.length then none
      else
        some (if throws L [(r, k)] n then some (ArrWorld.upd σ s (some (N, patch l (upTo [((i.toNat, r, k), v)] n u)))) else none)
    | _, _ => none
  | .push s _ =>
    match σ s with
    | some (N, l) => some (if l.length < N ∧ throws L (objs L) n = true then some σ else none)
    | none => none
  | .load s t j num off =>
    match σ s, σ t with
    | some (N, l), some (_, src) =>
      if s = t → j + num ≤ off ∨ off + num ≤ j then
        (failLoad L N l src j num off n u).map (Option.map fun l' => ArrWorld.upd σ s (some (N, l')))
      else none
    | _, _ => none
  | .append s t j num =>
    match σ s, σ t with
    | some (N, l), some (_, src) =>
      -- nothing but elements behind the end is assigned to
      (failLoad L N l src j num l.length n u).map (Option.map fun _ => σ)
    | _, _ => none
  | .get s i t => (step L σ (.get s i t)).map fun _ => if throws L (objs L) n then some σ else none
  | .back s t => (step L σ (.back s t)).map fun _ => if throws L (objs L) n then some σ else none
  | .iter s t =>
    match σ s with
    | some (_, l) => (step L σ (.iter s t)).map fun _ => if throws L (byStruct L l.length) n then some σ else none
    | none => none
  | _ => some none

/-- A program in which members may throw, cf. `Throwing.Arr.run`; `none` if the contract is violated. -/
def runFail (L : Layout V) (σ : State V) : List (ArrOp V × Option (Nat × Option V)) → Option (State V × List (Option (ArrOut V)))
  | [] => some (σ, [])
  | (op, f) :: ops =>
    match thrown op f with
    | none => none
    | some (some σ') => (runFail L σ' ops).map fun p => (p.1, none :: p.2)
    | some none =>
      match step L σ op with
      | none => none
      | some (σ', out) => (runFail L σ' ops).map fun p => (p.1, some out :: p.2)
where
  /-- The exception, if any. -/
  thrown (op : ArrOp V) (f : Option (Nat × Option V)) : Option (Option (State V)) :=
    match f with
    | none => some none
    | some (n, u) => fail L σ n u op

end ArrSpec
end LFA
