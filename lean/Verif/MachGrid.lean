import Verif.Machine
import Verif.World

/-
  soa_grid in the arithmetic of a 64-bit machine: the functions of `Verif.Accessor`, `Verif.Functors`, `Verif.Grid` and
  `Verif.World` once more, with every index, offset and pointer computed by the checked operations of `Verif.Machine` in the
  order of the source. An overflow of `long`, a `std::size_t` which wraps, and a pointer which leaves its buffer end the
  execution.
-/
set_option linter.unusedSectionVars false
namespace LFA.Mach

/-- Outcome of a computation which overflowed, wrapped or left a buffer with a pointer (C++ [expr.pre]/4, [expr.add]/4).
It is not distinguished from an access out of bounds. -/
def overflow : UB := .oob

/-- Continue with the result of an arithmetic expression (evaluation order of C++ [intro.execution]). -/
def chk {α β : Type} (o : Option α) (f : α → Except UB β) : Except UB β :=
  match o with
  | some a => f a
  | none => .error overflow

/-- `accessor.index() = gen_index(x, y, z)` with `std::size_t` arguments (macros.hpp:148-157). -/
def genIndexS (e : Ext) (x y z : Nat) : Option Int := do
  let z ← long z
  let y ← long y
  let x ← long x
  genIndex e x y z

section
variable {V : Type} [DecidableEq V]

/-- `&accessor.member()` / `&accessor.member<0>()` (detail/macros.hpp:92-107) in a buffer of `n` bytes. -/
def mem (L : Layout V) (n : Nat) (A : Acc) (r : Nat) (m : Member V) : Option Int :=
  member L n A.ext A.INDEX A.idx r m 0

/-- `&accessor.member()[k]` (`reference::operator[]`, detail/soa_array_member_copy_helper.hpp:163-166): `offset * SIZE` is
computed in `std::size_t`. -/
def arrayRef (L : Layout V) (n : Nat) (A : Acc) (r : Nat) (m : Member V) (k : Nat) : Option Int := do
  let p ← mem L n A r m
  let P ← dimProd A.ext
  let P ← size P
  let o ← size ((k : Int) * P)
  ptr n (p + o * m.ty.size)

/-- `data + SIZE * (INDEX - 1)` (detail/soa_array_member_copy_helper.hpp:218, 252), in `long`. -/
def plane (n : Nat) (e : Ext) (p : Int) (k s : Nat) : Option Int := do
  let P ← dimProd e
  let o ← long (P * k)
  ptr n (p + o * s)

/-- `data + SIZE * (INDEX - 1) + i` (detail/soa_array_member_copy_helper.hpp:66, 115): the product in `long`, the sum in
`std::size_t`. -/
def planeRow (n : Nat) (e : Ext) (p : Int) (k i s : Nat) : Option Int := do
  let P ← dimProd e
  let o ← long (P * k)
  let o ← size o
  let o ← size (o + i)
  ptr n (p + o * s)

/-- `source + OFFSET * stride` (detail/macros.hpp:188-190, 201-203, 221-223, 235-237) in a raw buffer of `n` bytes. -/
def rawBase (n : Nat) (off stride : Nat) : Option Int := do
  let o ← size ((off : Int) * stride)
  ptr n o

/-- `source[offset + i]` (detail/macros.hpp:190, 223). -/
def rawElem (n : Nat) (p : Int) (off i s : Nat) : Option Int := do
  let o ← size ((off : Int) + i)
  ptr n (p + o * s)

/-- `source[stride * (INDEX - 1) + offset + i]` (detail/soa_array_member_copy_helper.hpp:66, 115). -/
def rawPlane (n : Nat) (p : Int) (stride k off i s : Nat) : Option Int := do
  let a ← size ((stride : Int) * k)
  let b ← size (a + off)
  let c ← size (b + i)
  ptr n (p + c * s)

/-- `accessor << cell` (macros.hpp:227-242, detail/macros.hpp:140-159, detail/soa_array_member_copy_helper.hpp:202-234). -/
def setCell (L : Layout V) (n : Nat) (A : Acc) (cell : Cell V) : Block V → Except UB (Block V) :=
  forEach (fun r m b =>
    match m.arity with
    | none => chk (mem L n A r m) fun a => b.assign a m.ty (cell r 0)
    | some q => chk (mem L n A r m) fun p =>
        loopM q (fun k b => chk (plane n A.ext p k m.ty.size) fun a => b.assign a m.ty (cell r k)) b)
    L 0

/-- `accessor >> cell` (macros.hpp:244-252, detail/macros.hpp:161-181, detail/soa_array_member_copy_helper.hpp:236-268). -/
def getCell (L : Layout V) (n : Nat) (A : Acc) (b : Block V) : Cell V → Except UB (Cell V) :=
  forEach (fun r m cell =>
    match m.arity with
    | none => chk (mem L n A r m) fun a => (b.read a m.ty).map (fun v => cell.set r 0 v)
    | some q => chk (mem L n A r m) fun p => loopM q (fun k (cell : Cell V) =>
        chk (plane n A.ext p k m.ty.size) fun a => (b.read a m.ty).map (fun v => cell.set r k v)) cell)
    L 0

/-- `accessor.load(source, count, offset, stride)` (macros.hpp:261-273, detail/macros.hpp:183-214,
detail/soa_array_member_copy_helper.hpp:42-89); the source has `ns` bytes, `src b` is its content if the target is `b`. -/
def loadRaw (L : Layout V) (n ns : Nat) (A : Acc) (src : Block V → Block V) (count off stride : Nat) :
    Block V → Except UB (Block V) :=
  forEach (fun r m b =>
    match m.arity with
    | none => loopM count (fun i b =>
        chk (rawBase ns (offset L r) stride) fun p => chk (rawElem ns p off i m.ty.size) fun a =>
          ((src b).read a m.ty).bind fun v =>
            chk (mem L n A r m) fun q => chk (ptr n (q + (i : Int) * m.ty.size)) fun a => b.assign a m.ty v) b
    | some c => chk (rawBase ns (offset L r) stride) fun p => chk (arrayRef L n A r m 0) fun q =>
        loopM c (fun k b => loopM count (fun i b =>
          chk (rawPlane ns p stride k off i m.ty.size) fun a => ((src b).read a m.ty).bind fun v =>
            chk (planeRow n A.ext q k i m.ty.size) fun a => b.assign a m.ty v) b) b)
    L 0

/-- `accessor.save(target, count, offset, stride)` (macros.hpp:282-294, detail/macros.hpp:217-248,
detail/soa_array_member_copy_helper.hpp:91-138); `nt` is the size of the target. -/
def saveRaw (L : Layout V) (nt : Nat) (A : Acc) (b : Block V) (count off stride : Nat) : Block V → Except UB (Block V) :=
  forEach (fun r m tgt =>
    match m.arity with
    | none => loopM count (fun i tgt =>
        chk (mem L b.size A r m) fun q => chk (ptr b.size (q + (i : Int) * m.ty.size)) fun a =>
          (b.read a m.ty).bind fun v =>
            chk (rawBase nt (offset L r) stride) fun p => chk (rawElem nt p off i m.ty.size) fun a =>
              tgt.assign a m.ty v) tgt
    | some c => chk (rawBase nt (offset L r) stride) fun p => chk (arrayRef L b.size A r m 0) fun q =>
        loopM c (fun k tgt => loopM count (fun i tgt =>
          chk (planeRow b.size A.ext q k i m.ty.size) fun a => (b.read a m.ty).bind fun v =>
            chk (rawPlane nt p stride k off i m.ty.size) fun a => tgt.assign a m.ty v) tgt) tgt)
    L 0

/-- `accessor.construct_members()` (macros.hpp:296-304, detail/macros.hpp:275-293). -/
def constructMembers (L : Layout V) (n : Nat) (A : Acc) : Block V → Except UB (Block V) :=
  forEach (fun r m b =>
    match m.arity with
    | none => chk (mem L n A r m) fun a => b.construct a m.ty m.dflt
    | some q => loopM q (fun k b => chk (arrayRef L n A r m k) fun a => b.construct a m.ty m.dflt) b)
    L 0

/-- `accessor.destroy_members()` (macros.hpp:306-314, detail/macros.hpp:295-314, detail/generic_destruct.hpp:33-63). -/
def destroyMembers (L : Layout V) (n : Nat) (A : Acc) : Block V → Except UB (Block V) :=
  forEach (fun r m b =>
    match m.arity with
    | none => chk (mem L n A r m) fun a => b.destroy a m.ty
    | some q => loopM q (fun k b => chk (arrayRef L n A r m k) fun a => b.destroy a m.ty) b)
    L 0

/-- `std::copy(p, p + count, q)` (detail/macros.hpp:250-268): the end of the source has to be a valid pointer. The source is
in a buffer of `ns` bytes, the target in one of `n`. -/
def copyRun (n ns : Nat) (m : Member V) (p q : Int) (src : Block V → Block V) (count : Nat) (b : Block V) :
    Except UB (Block V) :=
  chk (ptr ns (p + (count : Int) * m.ty.size)) fun _ =>
    loopM count (fun i b =>
      chk (ptr ns (p + (i : Int) * m.ty.size)) fun a => ((src b).read a m.ty).bind fun v =>
        chk (ptr n (q + (i : Int) * m.ty.size)) fun a => b.assign a m.ty v) b

/-- `accessor.copy_members(other, count)` (macros.hpp:316-325, detail/macros.hpp:250-272). -/
def copyMembers (L : Layout V) (n ns : Nat) (A O : Acc) (src : Block V → Block V) (count : Nat) :
    Block V → Except UB (Block V) :=
  forEach (fun r m b =>
    match m.arity with
    | none => chk (mem L ns O r m) fun p => chk (mem L n A r m) fun q => copyRun n ns m p q src count b
    | some c => loopM c (fun k b =>
        chk (arrayRef L ns O r m k) fun p => chk (arrayRef L n A r m k) fun q => copyRun n ns m p q src count b) b)
    L 0

/-- A loop which increments `accessor.index()`, a `long`, at the end of each of its iterations
(detail/construct_functor.hpp:43-48, detail/set_instance_functor.hpp:57-64). -/
def walk {σ : Type} (n : Nat) (idx : Int) (f : Nat → Int → σ → Except UB σ) (s : σ) : Except UB σ :=
  (loopM n (fun i (p : Int × σ) => (f i p.1 p.2).bind fun s' => chk (long (p.1 + 1)) fun idx' => .ok (idx', s'))
    (idx, s)).map Prod.snd

/-- `construct_functor::operator()` (detail/construct_functor.hpp:38-51). -/
def constructFunctor (L : Layout V) (d e : Ext) (b : Block V) : Except UB (Block V) :=
  loopM d.z (fun z => loopM d.y fun y b' =>
    chk (genIndexS e 0 y z) fun i =>
      walk d.x i (fun _ idx b' => constructMembers L b.size (accAt e idx) b') b') b

/-- `destroy_functor::operator()` (detail/destroy_functor.hpp:39-52). -/
def destroyFunctor (L : Layout V) (d e : Ext) (b : Block V) : Except UB (Block V) :=
  loopM d.z (fun z => loopM d.y fun y b' =>
    chk (genIndexS e 0 y z) fun i =>
      walk d.x i (fun _ idx b' => destroyMembers L b.size (accAt e idx) b') b') b

/-- `copy_functor::operator()` (detail/copy_functor.hpp:36-46); `ns` is the size of the source buffer. -/
def copyFunctor (L : Layout V) (d es et : Ext) (ns : Nat) (src : Block V → Block V) (b : Block V) : Except UB (Block V) :=
  loopM d.z (fun z => loopM d.y fun y b' =>
    chk (genIndexS es 0 y z) fun i =>
      copyMembers L b.size ns (accAt et i) (accAt es i) src d.x b') b

/-- `set_instance_functor::operator()` (detail/set_instance_functor.hpp:54-65). -/
def setFunctor (L : Layout V) (e : Ext) (stride : Nat) (cells : List (Cell V)) (x y z count : Nat) (b : Block V) :
    Except UB (Block V) :=
  chk (genIndexS e x y z) fun i0 => walk count i0 (fun i idx b' =>
    match cells[i * stride]? with
    | none => .error .oob
    | some cell => setCell L b.size (accAt e idx) cell b') b

/-- `get_instance_functor::operator()` (detail/get_instance_functor.hpp:54-66). -/
def getFunctor (L : Layout V) (e : Ext) (b : Block V) (x y z count : Nat) (target : List (Cell V)) :
    Except UB (List (Cell V)) :=
  chk (genIndexS e x y z) fun i0 => walk count i0 (fun i idx target =>
    match target[i]? with
    | none => .error .oob
    | some cell => (getCell L b.size (accAt e idx) b cell).map fun cell' => target.set i cell') target

/-- `load_functor::operator()` (detail/load_functor.hpp:46-64); `n` is the size of the buffer. -/
def loadFunctor (L : Layout V) (n : Nat) (e : Ext) (src : Block V) (count : Nat) :
    List Streak → Nat → Block V → Except UB (Block V)
  | [], _, b => .ok b
  | s :: ss, off, b =>
    chk (genIndexS e s.x s.y s.z) fun i =>
      (loadRaw L n src.size (accAt e i) (fun _ => src) s.len off count b).bind fun b =>
        chk (size ((off : Int) + s.len)) fun off => loadFunctor L n e src count ss off.toNat b

/-- `save_functor::operator()` (detail/save_functor.hpp:41-59); `nt` is the size of the target. -/
def saveFunctor (L : Layout V) (nt : Nat) (e : Ext) (b : Block V) (count : Nat) :
    List Streak → Nat → Block V → Except UB (Block V)
  | [], _, tgt => .ok tgt
  | s :: ss, off, tgt =>
    chk (genIndexS e s.x s.y s.z) fun i =>
      (saveRaw L nt (accAt e i) b s.len off count tgt).bind fun tgt =>
        chk (size ((off : Int) + s.len)) fun off => saveFunctor L nt e b count ss off.toNat tgt

/-- `accessor[coord<X, Y, Z>()].m()`, or `…m()[k]` for array members (macros.hpp:207-225, detail/macros.hpp:27-34, 92-125). -/
def userRef (L : Layout V) (n : Nat) (e : Ext) (x y z X Y Z : Int) (r : Nat) (m : Member V) (k : Nat) : Option Int := do
  let i ← genIndex e x y z
  let I ← shiftIndex e 0 X Y Z
  match m.arity with
  | none => mem L n ⟨e, I, i⟩ r m
  | some _ => arrayRef L n ⟨e, I, i⟩ r m k

/-- User functor which writes a member of a neighbour (see `LFA.pokeFunctor`; macros.hpp:207-215, detail/macros.hpp:92-125). -/
def pokeFunctor (L : Layout V) (e : Ext) (x y z X Y Z : Int) (r k : Nat) (v : V) (b : Block V) : Except UB (Block V) :=
  match L[r]? with
  | none => .ok b -- does not compile
  | some m => chk (userRef L b.size e x y z X Y Z r m k) fun a => b.assign a m.ty v

/-- User functor which reads a member of a neighbour (see `LFA.peekFunctor`; macros.hpp:207-215, detail/macros.hpp:92-125). -/
def peekFunctor (L : Layout V) (e : Ext) (x y z X Y Z : Int) (r k : Nat) (b : Block V) : Except UB (Option V) :=
  match L[r]? with
  | none => .ok none -- does not compile
  | some m => chk (userRef L b.size e x y z X Y Z r m k) fun a => (b.read a m.ty).map some

variable (C : Cfg V)

/-- `init()` (soa_grid.hpp:453-456). -/
def init (g : Grid) (h : Heap V) : Res (Heap V) Unit :=
  g.callbackMut C (fun e => constructFunctor C.L g.dim e) h

/-- `destroy_and_deallocate()` (soa_grid.hpp:458-466). -/
def destroyAndDeallocate (g : Grid) (h : Heap V) : Res (Heap V) Unit :=
  match g.data with
  | none => .ok () h
  | some id =>
    (g.callbackMut C (fun e => destroyFunctor C.L g.dim e) h).bind fun _ h =>
      match g.bs with
      | none => .ub .uninitField
      | some n => Res.ofExcept (h.dealloc id n)

/-- `resize(new_dim_x, new_dim_y, new_dim_z)` (soa_grid.hpp:134-158); `bytes` is the computation of the byte size. -/
def resizeWith (bytes : Ext → Option Int) (g : Grid) (d : Ext) (h : Heap V) : Res (GS V) Unit :=
  if g.dim.x = d.x ∧ g.dim.y = d.y ∧ g.dim.z = d.z then .ok () (g, h)
  else
    (Res.withGrid g (destroyAndDeallocate C g h)).bind fun _ (_, h) =>
      let g1 : Grid := { g with dim := d }
      match selectSizes C.tr d with
      | .error e => .throw e (g1, h)
      | .ok e =>
        match bytes e with
        | none => .ub overflow
        | some bs =>
          let n := bs.toNat
          let (id, h) := h.alloc n
          let g2 : Grid := { g1 with ex := some e.x, ey := some e.y, ez := some e.z, bs := some n, data := some id }
          Res.withGrid g2 (init C g2 h)

/-- `resize(new_dim_x, new_dim_y, new_dim_z)` (soa_grid.hpp:134-158); the byte size is computed in `std::size_t`
(detail/set_byte_size_functor.hpp:50). -/
def resize (g : Grid) (d : Ext) (h : Heap V) : Res (GS V) Unit := resizeWith C (byteSize C.L) g d h

/-- `soa_grid(dim_x, dim_y, dim_z)` (soa_grid.hpp:87-94). -/
def new (d : Ext) (h : Heap V) : Res (GS V) Unit :=
  resize C ⟨⟨0, 0, 0⟩, none, none, none, none, none⟩ d h

/-- Size of the buffer behind a pointer (the argument of `allocate`, soa_grid.hpp:103, 152). -/
def sizeAt (h : Heap V) (data : Option Nat) : Nat :=
  match data with
  | none => 0
  | some id => ((h.blk id).getD (Block.fresh 0)).size

/-- `copy_in(other)` (soa_grid.hpp:468-471). -/
def copyIn (g other : Grid) (h : Heap V) : Res (GS V) Unit :=
  Res.withGrid g (other.dualCallback C g (fun es et h =>
    match other.data.map h.blk with
    | some none => .ub .dangling
    | _ => onBuffer g.data
      (copyFunctor C.L g.dim es et (sizeAt h other.data) (srcBlock h other.data g.data)) h) h)

/-- `soa_grid(const soa_grid& other)` (soa_grid.hpp:96-105). -/
def copyCtor (other : Grid) (h : Heap V) : Res (GS V) Unit :=
  match other.bs with
  | none => .ub .uninitField
  | some n =>
    let (id, h) := h.alloc n
    let g : Grid := ⟨other.dim, none, none, none, some n, some id⟩
    (Res.withGrid g (init C g h)).bind fun _ (g, h) => copyIn C g other h

/-- `operator=(const soa_grid& other)` (soa_grid.hpp:112-117). -/
def assign (g other : Grid) (h : Heap V) : Res (GS V) Unit :=
  (resize C g other.dim h).bind fun _ (g, h) => copyIn C g other h

/-- `~soa_grid()` (soa_grid.hpp:107-110). -/
def dtor (g : Grid) (h : Heap V) : Res (Heap V) Unit :=
  match destroyAndDeallocate C g h with
  | .throw _ _ => .ub .terminate
  | r => r

open World (ofGS ofCtor ofH withG upd)

/-- Executes one operation (soa_grid.hpp:87-396, 489-493). -/
def step (w : World V) : Op V → Except UB (World V × Out V)
  | .new s d =>
    match w.g s with
    | some _ => .error .lifetime
    | none => w.ofCtor s (new C d w.h)
  | .copy s t =>
    match w.g s with
    | some _ => .error .lifetime
    | none => w.withG t fun other => w.ofCtor s (copyCtor C other w.h)
  | .assign s t => w.withG s fun g => w.withG t fun other => w.ofGS s (fun _ => .unit) (assign C g other w.h)
  | .swap s t => w.withG s fun a => w.withG t fun b =>
      let p := Grid.swap a b
      .ok (⟨w.h, upd (upd w.g s (some p.1)) t (some p.2)⟩, .unit)
  | .resize s d => w.withG s fun g => w.ofGS s (fun _ => .unit) (resize C g d w.h)
  | .destroy s => w.withG s fun g =>
      match dtor C g w.h with
      | .ok _ h => .ok (⟨h, upd w.g s none⟩, .unit)
      | .throw _ _ => .error .terminate
      | .ub u => .error u
  | .set s x y z cells => w.withG s fun g =>
      w.ofH (fun _ => .unit) (g.callbackMut C (fun e => setFunctor C.L e 1 cells x y z cells.length) w.h)
  | .broadcast s x y z cell n => w.withG s fun g =>
      w.ofH (fun _ => .unit) (g.callbackMut C (fun e => setFunctor C.L e 0 [cell] x y z n) w.h)
  | .get s x y z target => w.withG s fun g =>
      w.ofH .cells (g.callbackRead C (fun e b => getFunctor C.L e b x y z target.length target) w.h)
  | .load s ss src n => w.withG s fun g =>
      w.ofH (fun _ => .unit) (g.callbackMut C (fun e b => loadFunctor C.L b.size e src n ss 0 b) w.h)
  | .save s ss tgt n => w.withG s fun g =>
      w.ofH .raw (g.callbackRead C (fun e b => saveFunctor C.L tgt.size e b n ss 0 tgt) w.h)
  | .poke s x y z X Y Z r k v => w.withG s fun g =>
      w.ofH (fun _ => .unit) (g.callbackMut C (fun e => pokeFunctor C.L e x y z X Y Z r k v) w.h)
  | .peek s x y z X Y Z r k => w.withG s fun g =>
      w.ofH .val (g.callbackRead C (fun e b => peekFunctor C.L e x y z X Y Z r k b) w.h)
  | .dims s => w.withG s fun g => .ok (w, .triple g.dim)
  | .extents s => w.withG s fun g =>
      match g.ex, g.ey, g.ez with
      | some x, some y, some z => .ok (w, .triple ⟨x, y, z⟩)
      | _, _, _ => .error .uninitField
  | .byteSize s => w.withG s fun g =>
      match g.bs with
      | some n => .ok (w, .nat n)
      | none => .error .uninitField

/-- Executes a sequence of operations of soa_grid (soa_grid.hpp:87-396) and collects what the caller observes. -/
def run (w : World V) : List (Op V) → Except UB (World V × List (Out V))
  | [] => .ok (w, [])
  | op :: ops =>
    match step C w op with
    | .error u => .error u
    | .ok (w', out) =>
      match run w' ops with
      | .error u => .error u
      | .ok (w'', outs) => .ok (w'', out :: outs)

end
end LFA.Mach
