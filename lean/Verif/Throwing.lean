import Verif.CudaProof
import Verif.World

/-
  soa_grids whose members throw: what is left behind if the constructor or the assignment operator of a member object throws an
  exception in the middle of a member function of soa_grid.

  Each function below is the counterpart of a function in Verif/Grid.lean. It takes two more arguments: the exception is thrown by
  the `n`-th construction or assignment of a member object (counting from 0). The objects before that one have been processed
  already, those behind it will not be, as there is no try block anywhere in the library. An assignment which throws leaves `u` in its
  target, or the value it had before if `u` is `none`; a constructor which throws leaves no object.

  Results are `none` if no exception is thrown, because there are not that many operations or because the `n`-th one handles an
  object of a trivial type. Destructors do not throw.
-/
set_option linter.unusedSectionVars false
namespace LFA
namespace Throwing

variable {V : Type} [DecidableEq V]

/-- Execution of an operation on one object, as `MemOp.exec`, but the source may be the target buffer itself (cf. `srcBlock`). -/
def exec (src : Block V → Block V) (o : MemOp V) (b : Block V) : Except UB (Block V) := o.exec (src b) b

/-- Type of the object which is written to. -/
def objTy : MemOp V → Option Ty
  | .assign _ ty _ | .construct _ ty _ | .destroy _ ty | .copy _ _ ty => some ty
  | .oob => none

/-- What is left of the buffer if the operation throws. Its operands have to be valid all the same. -/
def failed (src : Block V → Block V) (u : Option V) (o : MemOp V) (b : Block V) : Except UB (Block V) :=
  (exec src o b).bind fun _ =>
    match o, u with
    | .assign a ty _, some v => b.assign a ty v
    | .copy _ a ty, some v => b.assign a ty v
    | _, _ => .ok b

/-- The operations `ops` up to the `n`-th one, which throws. -/
def upTo (src : Block V → Block V) (ops : List (MemOp V)) (n : Nat) (u : Option V) (b : Block V) : Except UB (Option (Block V)) :=
  match ops[n]? with
  | none => .ok none
  | some o =>
    match objTy o with
    | some ⟨_, false⟩ => ((runL (exec src) (ops.take n) b).bind (failed src u o)).map some
    | _ => .ok none

/-! ### The functors as lists of operations -/

/-- `construct_functor::operator()` (detail/construct_functor.hpp:38-53, detail/macros.hpp:275-293). -/
def constructList (L : Layout V) (d e : Ext) : List (MemOp V) :=
  (List.range d.z).flatMap fun (z : Nat) => (List.range d.y).flatMap fun (y : Nat) => (List.range d.x).flatMap fun (x : Nat) =>
    constructOps L (accAt e (genIndex e x y z))

/-- `destroy_functor::operator()` (detail/destroy_functor.hpp:39-52, detail/macros.hpp:295-314). -/
def destroyList (L : Layout V) (d e : Ext) : List (MemOp V) :=
  (List.range d.z).flatMap fun (z : Nat) => (List.range d.y).flatMap fun (y : Nat) => (List.range d.x).flatMap fun (x : Nat) =>
    destroyOps L (accAt e (genIndex e x y z))

/-- `copy_members(other, count)` for object `q`, element `i` of the row (macros.hpp:316-325, detail/macros.hpp:250-272). -/
def copyOp (L : Layout V) (A O : Acc) (q : Nat × Member V × Nat) (i : Nat) : MemOp V :=
  match q.2.1.arity with
  | none => .copy (O.member L q.1 q.2.1 0 + (i : Int) * q.2.1.ty.size) (A.member L q.1 q.2.1 0 + (i : Int) * q.2.1.ty.size) q.2.1.ty
  | some _ => .copy (O.arrayRef L q.1 q.2.1 q.2.2 + (i : Int) * q.2.1.ty.size) (A.arrayRef L q.1 q.2.1 q.2.2 + (i : Int) * q.2.1.ty.size)
      q.2.1.ty

/-- `copy_functor::operator()` (detail/copy_functor.hpp:36-46). -/
def copyList (L : Layout V) (d es et : Ext) : List (MemOp V) :=
  (List.range d.z).flatMap fun (z : Nat) => (List.range d.y).flatMap fun (y : Nat) =>
    (memKeys L).flatMap fun q => (List.range d.x).map fun i =>
      copyOp L (accAt et (genIndex es 0 y z)) (accAt es (genIndex es 0 y z)) q i

/-- `set_instance_functor::operator()` (detail/set_instance_functor.hpp:54-65, detail/macros.hpp:140-159). -/
def setList (L : Layout V) (e : Ext) (stride : Nat) (cells : List (Cell V)) (x y z count : Nat) : List (MemOp V) :=
  (List.range count).flatMap (setOpsAt L e cells stride x y z)

/-- `load_functor::operator()` (detail/load_functor.hpp:38-58, detail/macros.hpp:183-214). -/
def loadList (L : Layout V) (e : Ext) (count : Nat) : List Streak → Nat → List (MemOp V)
  | [], _ => []
  | s :: ss, off => ((memKeys L).flatMap fun q => (List.range s.len).map (loadOp L (accAt e (genIndex e s.x s.y s.z)) off count q)) ++
      loadList L e count ss (off + s.len)

/-! ### Member functions of soa_grid -/
variable (C : Cfg V)

/-- A functor which performs the operations `ops` on the buffer behind `data`; the `n`-th one throws. -/
def onBuffer (data : Option Nat) (src : Block V → Block V) (ops : List (MemOp V)) (n : Nat) (u : Option V) (h : Heap V) :
    Except UB (Option (Heap V)) :=
  match data with
  | none => (upTo src ops n u (Block.fresh 0)).map (Option.map fun _ => h)
  | some id =>
    match h.blk id with
    | none => .error .dangling
    | some b => (upTo src ops n u b).map (Option.map fun b' => h.set id b')

/-- `callback(functor)` (soa_grid.hpp:160-170). -/
def callback (g : Grid) (ops : Ext → List (MemOp V)) (src : Block V → Block V) (n : Nat) (u : Option V) (h : Heap V) :
    Except UB (Option (Heap V)) :=
  match selectSizes C.tr g.dim with
  | .error _ => .ok none -- throws, but before it gets to any member
  | .ok e => onBuffer g.data src (ops e) n u h

/-- `resize(new_dim_x, new_dim_y, new_dim_z)` (soa_grid.hpp:134-158): the old cells are gone and the new dimensions are in effect
    before members are constructed. -/
def resize (g : Grid) (d : Ext) (n : Nat) (u : Option V) (h : Heap V) : Except UB (Option (GS V)) :=
  if g.dim.x = d.x ∧ g.dim.y = d.y ∧ g.dim.z = d.z then .ok none
  else
    match g.destroyAndDeallocate C h with
    | .ub e => .error e
    | .throw _ _ => .ok none
    | .ok _ h =>
      match selectSizes C.tr d with
      | .error _ => .ok none
      | .ok e =>
        let size := byteSizeOf C.L e
        let (id, h) := h.alloc size
        let g2 : Grid := { g with dim := d, ex := some e.x, ey := some e.y, ez := some e.z, bs := some size, data := some id }
        -- construction does not read from any buffer
        (onBuffer (some id) (fun b => b) (constructList C.L d e) n u h).map (Option.map fun h => (g2, h))
/-- `copy_in(other)` (soa_grid.hpp:468-471). -/
def copyIn (g other : Grid) (n : Nat) (u : Option V) (h : Heap V) : Except UB (Option (Heap V)) :=
  let go (es et : Ext) : Except UB (Option (Heap V)) :=
    match other.data.map h.blk with
    | some none => .error .dangling
    | _ => onBuffer g.data (srcBlock h other.data g.data) (copyList C.L g.dim es et) n u h
  if C.asym then
    match selectSizes C.tr other.dim, selectSizes C.tr g.dim with
    | .ok es, .ok et => go es et
    | _, _ => .ok none
  else if other.dim.x ≠ g.dim.x ∨ other.dim.y ≠ g.dim.y ∨ other.dim.z ≠ g.dim.z then .ok none
  else
    match selectSizes C.tr other.dim with
    | .ok e => go e e
    | .error _ => .ok none

/-- Number of objects constructed by `resize`. -/
def constructed (g : Grid) (d : Ext) : Nat :=
  if g.dim.x = d.x ∧ g.dim.y = d.y ∧ g.dim.z = d.z then 0
  else
    match selectSizes C.tr d with
    | .ok e => (constructList C.L d e).length
    | .error _ => 0

/-- `operator=(const soa_grid& other)` (soa_grid.hpp:112-117): `resize`, then `copy_in`. -/
def assign (g other : Grid) (n : Nat) (u : Option V) (h : Heap V) : Except UB (Option (GS V)) :=
  let c := constructed C g other.dim
  if n < c then resize C g other.dim n u h
  else
    match g.resize C other.dim h with
    | .ub e => .error e
    | .throw _ _ => .ok none
    | .ok _ (g', h') => (copyIn C g' other (n - c) u h').map (Option.map fun h => (g', h))

/-- `soa_grid(const soa_grid& other)` (soa_grid.hpp:96-105): construction of all cells, then `copy_in`. -/
def copyCtor (other : Grid) (n : Nat) (u : Option V) (h : Heap V) : Except UB (Option (Heap V)) :=
  match other.bs with
  | none => .error .uninitField
  | some size =>
    let (id, h) := h.alloc size
    let g : Grid := ⟨other.dim, none, none, none, some size, some id⟩
    match selectSizes C.tr other.dim with
    | .error _ => .ok none
    | .ok e =>
      let c := (constructList C.L other.dim e).length
      if n < c then onBuffer (some id) (fun b => b) (constructList C.L other.dim e) n u h
      else
        match g.init C h with
        | .ub e => .error e
        | .throw _ _ => .ok none
        | .ok _ h => copyIn C g other (n - c) u h

/-- The state after an operation in which the `n`-th construction or assignment of a member object throws, `none` if it does not
    throw. If a constructor of soa_grid throws then there is no grid, and its destructor will not run. `get` and `save` assign to
    memory of the caller, which is not part of the state; they do not change any grid. -/
def step (w : World V) (n : Nat) (u : Option V) : Op V → Except UB (Option (World V))
  | .new s d =>
    match w.g s with
    | some _ => .error .lifetime
    | none => (resize C ⟨⟨0, 0, 0⟩, none, none, none, none, none⟩ d n u w.h).map (Option.map fun p => ⟨p.2, w.g⟩)
  | .copy s t =>
    match w.g s, w.g t with
    | none, some other => (copyCtor C other n u w.h).map (Option.map fun h => ⟨h, w.g⟩)
    | _, _ => .error .lifetime
  | .assign s t =>
    match w.g s, w.g t with
    | some g, some other => (assign C g other n u w.h).map (Option.map fun p => ⟨p.2, World.upd w.g s (some p.1)⟩)
    | _, _ => .error .lifetime
  | .resize s d =>
    match w.g s with
    | none => .error .lifetime
    | some g => (resize C g d n u w.h).map (Option.map fun p => ⟨p.2, World.upd w.g s (some p.1)⟩)
  | .set s x y z cells => onGrid s fun g => callback C g (fun e => setList C.L e 1 cells x y z cells.length) (fun b => b) n u w.h
  | .broadcast s x y z cell count => onGrid s fun g => callback C g (fun e => setList C.L e 0 [cell] x y z count) (fun b => b) n u w.h
  | .load s ss src count => onGrid s fun g => callback C g (fun e => loadList C.L e count ss 0) (fun _ => src) n u w.h
  | .poke s x y z X Y Z r k v => onGrid s fun g => callback C g (fun e =>
      match C.L[r]? with
      | none => []
      | some m => [.assign (((accAt e (genIndex e x y z)).shift X Y Z).userRef C.L r m k) m.ty v]) (fun b => b) n u w.h
  | .get s x y z target =>
    (w.step C (.get s x y z target)).map fun _ => if C.L.any fun m => !m.ty.triv then some w else none
  | .save s ss tgt count =>
    (w.step C (.save s ss tgt count)).map fun _ => if C.L.any fun m => !m.ty.triv then some w else none
  | .swap _ _ | .destroy _ | .peek _ _ _ _ _ _ _ _ _ | .dims _ | .extents _ | .byteSize _ => .ok none
where
  /-- A call which modifies the buffer of grid `s`. -/
  onGrid (s : Nat) (f : Grid → Except UB (Option (Heap V))) : Except UB (Option (World V)) :=
    match w.g s with
    | none => .error .lifetime
    | some g => (f g).map (Option.map fun h => ⟨h, w.g⟩)

end Throwing
end LFA
