import Verif.MachGrid
import Verif.SoaArray

/-
  soa_array in the arithmetic of a 64-bit machine whose `int` has 32 bits: the functions of `Verif.SoaArray` once more. Every
  arithmetic expression and every conversion is checked: values which do not fit the type make the function fail.
-/
set_option linter.unusedSectionVars false
namespace LFA.Mach

/-- Range of `int`. -/
def InInt (a : Int) : Prop := -2 ^ 31 ≤ a ∧ a < 2 ^ 31

instance (a : Int) : Decidable (InInt a) := inferInstanceAs (Decidable (_ ∧ _))

/-- Conversion to `int` (C++ [conv.integral]/3): `none` if the value changes. -/
def int32 (a : Int) : Option Int := if InInt a then some a else none

section
variable {V : Type} [DecidableEq V] (L : Layout V)
open SArr (dim)

/-- `operator[](int)`, `at(int)` (soa_array.hpp:118-137, 146-151). -/
def arrAt (N : Nat) (i : Int) : Option Acc := do
  let i ← int32 i
  some (accAt (dim N) i)

/-- `at(std::size_t)` (soa_array.hpp:139-144, 153-158), and `(*this)[static_cast<std::ptrdiff_t>(elements)]` of `operator<<`. -/
def arrAtSz (N : Nat) (i : Nat) : Option Acc := do
  let i ← long i
  arrAt N i

/-- `BYTE_SIZE` (soa_array.hpp:58). -/
def arrBytes (N : Nat) : Option Int := size ((aggSize L : Int) * N)

/-- `construct_all_instances` (soa_array.hpp:274-281) on the uninitialised `my_data`. -/
def arrConstructAll (N : Nat) : Except UB (Block V) :=
  chk (arrBytes L N) fun n =>
    walk N 0 (fun _ idx b => constructMembers L n.toNat (accAt (dim N) idx) b) (Block.fresh n.toNat)

/-- `soa_array(elements, value)` (soa_array.hpp:60-69): the loop compares with `int(elements)`. -/
def arrNew (N n : Nat) (v : Cell V) : Except UB (SArr V) :=
  (arrConstructAll L N).bind fun b =>
    chk (int32 n) fun k =>
      (walk k.toNat 0 (fun _ idx b' => setCell L b.size (accAt (dim N) idx) v b') b).map fun b => ⟨N, n, b⟩

/-- `~soa_array` (soa_array.hpp:90-98). -/
def arrDtor (a : SArr V) : Except UB (Block V) :=
  walk a.N 0 (fun _ idx b => destroyMembers L a.data.size (accAt (dim a.N) idx) b) a.data

/-- `copy_in` (soa_array.hpp:283-294); `ns` is the number of bytes of the source, `src` as in `SArr.copyIn`. -/
def arrCopyIn (a : SArr V) (M m ns : Nat) (src : Block V → Block V) : Res (SArr V) Unit :=
  if m > a.N then .throw SArr.tooLarge a
  else match chk (arrAt a.N 0) (fun A => chk (arrAt M 0) fun O => copyMembers L a.data.size ns A O src m a.data) with
    | .ok b => .ok () ⟨a.N, m, b⟩
    | .error u => .ub u

/-- `operator<<`, `push_back` (soa_array.hpp:160-173, 246-251), host version. -/
def arrPush (a : SArr V) (c : Cell V) : Res (SArr V) Unit :=
  if a.n ≥ a.N then .throw (.outOfRange "capacity exceeded") a
  else match chk (arrAtSz a.N a.n) (fun A => (setCell L a.data.size A c a.data).bind fun b =>
      chk (size ((a.n : Int) + 1)) fun n => .ok (b, n.toNat)) with
    | .ok p => .ok () ⟨a.N, p.2, p.1⟩
    | .error u => .ub u

/-- `pop_back` (soa_array.hpp:233-244), host version. -/
def arrPop (a : SArr V) : Res (SArr V) Unit :=
  if a.n = 0 then .throw (.outOfRange "soa_array is already empty") a
  else match chk (size ((a.n : Int) - 1)) (fun n => .ok n.toNat) with
    | .ok n => .ok () ⟨a.N, n, a.data⟩
    | .error u => .ub u

/-- The copying part of `load` (soa_array.hpp:194): `accessor.index()` is a `long`, `OTHER_SIZE` as well. -/
def arrLoadCopy (a : SArr V) (M ns : Nat) (src : Block V → Block V) (j num off : Nat) : Except UB (Block V) :=
  chk (arrAtSz a.N off) fun A =>
    chk (long j) fun j => chk (size j) fun j =>
      chk (long M) fun M => chk (size M) fun M =>
        loadRaw L a.data.size ns A src num j.toNat M.toNat a.data

/-- `num + offset` of `load` (soa_array.hpp:189). -/
def arrLoadEnd (num off : Nat) : Except UB Nat := chk (size ((num : Int) + off)) fun t => .ok t.toNat

/-- A computation without exceptions, followed by one which may throw. -/
def thenRes {α σ β : Type} (x : Except UB α) (f : α → Res σ β) : Res σ β :=
  match x with
  | .ok a => f a
  | .error u => .ub u

/-- `load(accessor, num, offset)` (soa_array.hpp:183-196). -/
def arrLoad (a : SArr V) (M ns : Nat) (src : Block V → Block V) (j num off : Nat) : Res (SArr V) Unit :=
  thenRes (arrLoadEnd num off) fun t =>
    if max a.n t > a.N then .throw SArr.tooLarge a
    else thenRes (arrLoadCopy L a M ns src j num off) fun b => .ok () ⟨a.N, max a.n t, b⟩

/-- Traversal from `begin()` to `end()` (soa_array.hpp:219-231, macros.hpp:176-205). -/
def arrIter (a : SArr V) (t : Cell V) : Except UB (List (Cell V)) :=
  chk (arrAtSz a.N a.n) fun E =>
    walk E.idx.toNat 0 (fun _ idx l => (getCell L a.data.size (accAt (dim a.N) idx) a.data t).map fun c => l ++ [c]) []

/-- `back() >> t` (soa_array.hpp:212-217). -/
def arrBack (a : SArr V) (t : Cell V) : Except UB (Cell V) :=
  chk (size ((a.n : Int) - 1)) fun n => chk (arrAtSz a.N n.toNat) fun A => getCell L a.data.size A a.data t

/-- `byte_size()` (soa_array.hpp:264-267). -/
def arrByteSize (a : SArr V) : Except UB Nat := chk (size ((a.n : Int) * aggSize L)) fun n => .ok n.toNat

/-- A new array for slot `s`. -/
def arrPut (w : ArrWorld V) (s : Nat) : Except UB (SArr V) → Except UB (ArrWorld V × ArrOut V)
  | .ok a => .ok (⟨ArrWorld.upd w.a s (some a), w.gone⟩, .unit)
  | .error u => .error u

/-- Executes one operation of a program over soa_arrays, like `ArrWorld.step`. The implicitly defined copy operations and `swap`
    copy bytes (soa_array.hpp:302-308), and `size`, `capacity` and `clear` compute nothing. -/
def arrStep (w : ArrWorld V) : ArrOp V → Except UB (ArrWorld V × ArrOut V)
  | .new s N n v =>
    match w.a s with
    | some _ => .error .lifetime
    | none => arrPut w s (arrNew L N n v)
  | .copy s N t cst =>
    match w.a s with
    | some _ => .error .lifetime
    | none => w.withA t fun o =>
      if cst = true ∧ N = o.N then .ok (⟨ArrWorld.upd w.a s (some ⟨o.N, o.n, o.data.bytes⟩), w.gone⟩, .unit)
      else match arrConstructAll L N with
        | .error u => .error u
        | .ok b =>
          match arrCopyIn L ⟨N, 0, b⟩ o.N o.n o.data.size (fun _ => o.data) with
          | .ok _ a => .ok (⟨ArrWorld.upd w.a s (some a), w.gone⟩, .unit)
          | .throw e a => .ok (⟨w.a, a.data :: w.gone⟩, .threw e)
          | .ub u => .error u
  | .assign s t cst => w.withA s fun a => w.withA t fun o =>
      if cst = true ∧ a.N = o.N then .ok (⟨ArrWorld.upd w.a s (some ⟨o.N, o.n, o.data.bytes⟩), w.gone⟩, .unit)
      else w.modify s (arrCopyIn L a o.N o.n o.data.size (ArrWorld.srcOf s t o))
  | .destroy s => w.withA s fun a =>
      match arrDtor L a with
      | .ok b => .ok (⟨ArrWorld.upd w.a s none, b :: w.gone⟩, .unit)
      | .error u => .error u
  | .set s i c => w.withA s fun a => w.wr s a (chk (arrAt a.N i) fun A => setCell L a.data.size A c a.data)
  | .get s i t => w.withA s fun a =>
      w.ro (fun c => .cells [c]) (chk (arrAt a.N i) fun A => getCell L a.data.size A a.data t)
  | .poke s i r k v => w.withA s fun a =>
      match L[r]? with
      | none => .error .oob
      | some m => w.wr s a (chk (arrAt a.N i) fun A => chk (arrayRef L a.data.size A r m k) fun p => a.data.assign p m.ty v)
  | .peek s i r k => w.withA s fun a =>
      match L[r]? with
      | none => .error .oob
      | some m => w.ro .val (chk (arrAt a.N i) fun A => chk (arrayRef L a.data.size A r m k) fun p => a.data.read p m.ty)
  | .push s c => w.withA s fun a => w.modify s (arrPush L a c)
  | .pop s => w.withA s fun a => w.modify s (arrPop a)
  | .clear s => w.withA s fun a => .ok (⟨ArrWorld.upd w.a s (some { a with n := 0 }), w.gone⟩, .unit)
  | .back s t => w.withA s fun a => w.ro (fun c => .cells [c]) (arrBack L a t)
  | .load s t j num off => w.withA s fun a => w.withA t fun o =>
      w.modify s (arrLoad L a o.N o.data.size (ArrWorld.srcOf s t o) j num off)
  | .append s t j num => w.withA s fun a => w.withA t fun o =>
      w.modify s (arrLoad L a o.N o.data.size (ArrWorld.srcOf s t o) j num a.n)
  | .size s => w.withA s fun a => .ok (w, .nat a.n)
  | .capacity s => w.withA s fun a => .ok (w, .nat a.N)
  | .byteSize s => w.withA s fun a => w.ro .nat (arrByteSize L a)
  | .iter s t => w.withA s fun a => w.ro .cells (arrIter L a t)
  | .swap s t => w.withA s fun a => w.withA t fun b =>
      .ok (⟨ArrWorld.upd (ArrWorld.upd w.a s (some ⟨a.N, b.n, b.data.bytes⟩)) t (some ⟨b.N, a.n, a.data.bytes⟩), w.gone⟩, .unit)

/-- Executes a program. -/
def arrRun (w : ArrWorld V) : List (ArrOp V) → Except UB (ArrWorld V × List (ArrOut V))
  | [] => .ok (w, [])
  | op :: ops =>
    match arrStep L w op with
    | .error u => .error u
    | .ok (w', out) =>
      match arrRun w' ops with
      | .error u => .error u
      | .ok (w'', outs) => .ok (w'', out :: outs)

end
end LFA.Mach
