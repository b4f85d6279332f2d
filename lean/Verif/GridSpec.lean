import Verif.World

/-
  Specification of soa_grid: what a user expects, in terms of plain 3D arrays of structs. Nothing in here refers to buffers,
  offsets, accessors or loops.
-/
set_option linter.unusedSectionVars false
namespace LFA

/-- A plain 3D array of structs. `ext` are the extents the grid reports; `none` where the library does not define them
    (after copy construction, and after swapping grids with different extents). -/
structure AGrid (V : Type) where
  dim : Ext
  ext : Option Ext
  cells : Nat → Nat → Nat → Cell V

/-- A grid variable: no object, a default constructed grid without any memory, or an array. -/
inductive ASlot (V : Type) where
  | absent
  | blank
  | grid (g : AGrid V)

/-- All grid variables. -/
abbrev AWorld (V : Type) := Nat → ASlot V

namespace Spec
variable {V : Type}

/-- All members value-initialised. -/
def dfltCells (L : Layout V) (d : V) : Nat → Nat → Nat → Cell V := fun _ _ _ => dfltCell L d

/-- Replace `n` cells of the row `(y, z)`, starting from `x`. -/
def setRow (cells : Nat → Nat → Nat → Cell V) (x y z n : Nat) (new : Nat → Cell V) : Nat → Nat → Nat → Cell V :=
  fun x' y' z' => if y' = y ∧ z' = z ∧ x ≤ x' ∧ x' < x + n then new (x' - x) else cells x' y' z'

/-- Coordinates covered by streaks, in order. -/
def coords (ss : List Streak) : List (Nat × Nat × Nat) :=
  ss.flatMap fun s => (List.range s.len).map fun j => (s.x + j, s.y, s.z)

/-- Write a list of structs to a list of coordinates, one after the other. -/
def scatter (cells : Nat → Nat → Nat → Cell V) : List ((Nat × Nat × Nat) × Cell V) → Nat → Nat → Nat → Cell V
  | [] => cells
  | (p, c) :: rest => scatter (fun x y z => if (x, y, z) = p then c else cells x y z) rest

/-- Number of bytes of the members registered before member `r`. -/
def bytesBefore (L : Layout V) (r : Nat) : Nat := ((L.take r).map fun m => m.ty.size * m.elems).sum

/-- Number of bytes of one struct. -/
def structBytes (L : Layout V) : Nat := (L.map fun m => m.ty.size * m.elems).sum

/-- The raw buffer format of `load`/`save` (detail/load_functor.hpp:25-30): for each member, for each array element,
    `n` consecutive values. Here the first `rows.length ≤ n` of them are known. -/
structure Packed (L : Layout V) (n : Nat) (rows : List (Cell V)) (b : Block V) : Prop where
  size : n * structBytes L ≤ b.size
  vals : ∀ r m k i row, L[r]? = some m → k < m.elems → rows[i]? = some row →
    b.Holds (n * (bytesBefore L r + m.ty.size * k) + i * m.ty.size) m.ty (row r k)

/-- A raw buffer into which `n` structs can be saved: plain bytes for trivial members, live objects for others. -/
structure RawReady (L : Layout V) (n : Nat) (b : Block V) : Prop where
  size : n * structBytes L ≤ b.size
  triv : ∀ r m k i, L[r]? = some m → k < m.elems → i < n → m.ty.triv = true →
    b.NoNT (n * (bytesBefore L r + m.ty.size * k) + i * m.ty.size) m.ty.size
  live : ∀ r m k i, L[r]? = some m → k < m.elems → i < n → m.ty.triv = false →
    ∃ v, b.Holds (n * (bytesBefore L r + m.ty.size * k) + i * m.ty.size) m.ty v

/-- A streak inside of the grid. -/
def StreakIn (d : Ext) (s : Streak) : Prop := s.x + s.len ≤ d.x ∧ s.y < d.y ∧ s.z < d.z

/-- Extents after swapping: the code exchanges `extent_x`, but not `extent_y` and `extent_z`. -/
def swapExt (mine theirs : Option Ext) : Option Ext :=
  match mine, theirs with
  | some a, some b => if a.y = b.y ∧ a.z = b.z then some b else none
  | _, _ => none

variable (C : Cfg V)

/-- Contract of each operation: when may it be called? -/
def Pre (a : AWorld V) : Op V → Prop
  | .new s _ => a s = .absent
  | .copy s t => a s = .absent ∧ ∃ g, a t = .grid g
  | .assign s t => a s ≠ .absent ∧ ∃ g, a t = .grid g
  | .swap s t => ∃ g g', a s = .grid g ∧ a t = .grid g' ∧ g.dim.y = g'.dim.y ∧ g.dim.z = g'.dim.z
  | .resize s d =>
    match a s with
    | .absent => False
    | .blank => d = ⟨0, 0, 0⟩ ∨ ∃ e, selectSizes C.tr d = .ok e
    | .grid _ => ∃ e, selectSizes C.tr d = .ok e
  | .destroy s => a s ≠ .absent
  | .set s x y z cells => ∃ g, a s = .grid g ∧ x + cells.length ≤ g.dim.x ∧ y < g.dim.y ∧ z < g.dim.z
  | .broadcast s x y z _ n => ∃ g, a s = .grid g ∧ x + n ≤ g.dim.x ∧ y < g.dim.y ∧ z < g.dim.z
  | .get s x y z target => ∃ g, a s = .grid g ∧ x + target.length ≤ g.dim.x ∧ y < g.dim.y ∧ z < g.dim.z
  | .load s ss src n => ∃ g, a s = .grid g ∧ (∀ st ∈ ss, StreakIn g.dim st) ∧ (coords ss).length ≤ n ∧
      ∃ rows : List (Cell V), rows.length = (coords ss).length ∧ Packed C.L n rows src
  | .save s ss tgt n => ∃ g, a s = .grid g ∧ (∀ st ∈ ss, StreakIn g.dim st) ∧ (coords ss).length ≤ n ∧
      RawReady C.L n tgt
  | .poke s x y z X Y Z r k _ => ∃ g m, a s = .grid g ∧ C.L[r]? = some m ∧ k < m.elems ∧
      0 ≤ x + X ∧ x + X < g.dim.x ∧ 0 ≤ y + Y ∧ y + Y < g.dim.y ∧ 0 ≤ z + Z ∧ z + Z < g.dim.z
  | .peek s x y z X Y Z r k => ∃ g m, a s = .grid g ∧ C.L[r]? = some m ∧ k < m.elems ∧
      0 ≤ x + X ∧ x + X < g.dim.x ∧ 0 ≤ y + Y ∧ y + Y < g.dim.y ∧ 0 ≤ z + Z ∧ z + Z < g.dim.z
  | .dims s => a s ≠ .absent
  | .extents s => ∃ g e, a s = .grid g ∧ g.ext = some e
  | .byteSize s => ∃ g, a s = .grid g

/-- Effect on the arrays and observable result of each operation: `Post a op a' out`. -/
inductive Post (dv : V) : AWorld V → Op V → AWorld V → Out V → Prop where
  | newBlank (a : AWorld V) (s : Nat) : Post dv a (.new s ⟨0, 0, 0⟩) (World.upd a s .blank) .unit
  | new (a : AWorld V) (s : Nat) (d e : Ext) (hd : d ≠ ⟨0, 0, 0⟩) (h : selectSizes C.tr d = .ok e) :
      Post dv a (.new s d) (World.upd a s (.grid ⟨d, some e, dfltCells C.L dv⟩)) .unit
  | newFail (a : AWorld V) (s : Nat) (d : Ext) (x : Exc) (hd : d ≠ ⟨0, 0, 0⟩) (h : selectSizes C.tr d = .error x) :
      Post dv a (.new s d) a (.threw x)
  | copy (a : AWorld V) (s t : Nat) (g : AGrid V) (h : a t = .grid g) :
      Post dv a (.copy s t) (World.upd a s (.grid { g with ext := none })) .unit
  | assign (a : AWorld V) (s t : Nat) (g : AGrid V) (ext : Option Ext) (h : a t = .grid g) :
      -- the target keeps its own notion of extents if its dimensions do not change, else they are those selected
      ((∃ g', a s = .grid g' ∧ g'.dim = g.dim ∧ ext = g'.ext) ∨
        ((∀ g', a s = .grid g' → g'.dim ≠ g.dim) ∧ (a s = .blank → g.dim ≠ ⟨0, 0, 0⟩) ∧
          ∃ e, ext = some e ∧ selectSizes C.tr g.dim = .ok e)) →
      Post dv a (.assign s t) (World.upd a s (.grid { g with ext := ext })) .unit
  | assignBlank (a : AWorld V) (s t : Nat) (g : AGrid V) (h : a t = .grid g) (hs : a s = .blank) (hg : g.dim = ⟨0, 0, 0⟩) :
      Post dv a (.assign s t) a .unit
  | swap (a : AWorld V) (s t : Nat) (g g' : AGrid V) (h : a s = .grid g) (h' : a t = .grid g') :
      Post dv a (.swap s t)
        (World.upd (World.upd a s (.grid { g' with ext := swapExt g.ext g'.ext })) t
          (.grid { g with ext := swapExt g'.ext g.ext })) .unit
  | resizeBlank (a : AWorld V) (s : Nat) (h : a s = .blank) : Post dv a (.resize s ⟨0, 0, 0⟩) a .unit
  | resizeSame (a : AWorld V) (s : Nat) (g : AGrid V) (h : a s = .grid g) : Post dv a (.resize s g.dim) a .unit
  | resize (a : AWorld V) (s : Nat) (d e : Ext) (h : a s ≠ .absent) (hb : a s = .blank → d ≠ ⟨0, 0, 0⟩)
      (hg : ∀ g, a s = .grid g → d ≠ g.dim) (he : selectSizes C.tr d = .ok e) :
      Post dv a (.resize s d) (World.upd a s (.grid ⟨d, some e, dfltCells C.L dv⟩)) .unit
  | destroy (a : AWorld V) (s : Nat) : Post dv a (.destroy s) (World.upd a s .absent) .unit
  | set (a : AWorld V) (s x y z : Nat) (cells : List (Cell V)) (new : Nat → Cell V) (g : AGrid V) (h : a s = .grid g)
      (hn : ∀ j, j < cells.length → cells[j]? = some (new j)) :
      Post dv a (.set s x y z cells)
        (World.upd a s (.grid { g with cells := setRow g.cells x y z cells.length new })) .unit
  | broadcast (a : AWorld V) (s x y z : Nat) (cell : Cell V) (n : Nat) (g : AGrid V) (h : a s = .grid g) :
      Post dv a (.broadcast s x y z cell n)
        (World.upd a s (.grid { g with cells := setRow g.cells x y z n (fun _ => cell) })) .unit
  | get (a : AWorld V) (s x y z : Nat) (target out : List (Cell V)) (g : AGrid V) (h : a s = .grid g)
      (hl : out.length = target.length)
      (ho : ∀ j t, target[j]? = some t → out[j]? = some (overlay C.L (g.cells (x + j) y z) t)) :
      Post dv a (.get s x y z target) a (.cells out)
  | load (a : AWorld V) (s : Nat) (ss : List Streak) (src : Block V) (n : Nat) (g : AGrid V) (rows : List (Cell V))
      (h : a s = .grid g) (hl : rows.length = (coords ss).length) (hp : Packed C.L n rows src) :
      Post dv a (.load s ss src n)
        (World.upd a s (.grid { g with cells := scatter g.cells ((coords ss).zip rows) })) .unit
  | save (a : AWorld V) (s : Nat) (ss : List Streak) (tgt out : Block V) (n : Nat) (g : AGrid V) (h : a s = .grid g)
      (hp : Packed C.L n ((coords ss).map fun p => g.cells p.1 p.2.1 p.2.2) out)
      (hs : out.size = tgt.size) (hf : ∀ i, n * structBytes C.L ≤ i → out.get i = tgt.get i) :
      Post dv a (.save s ss tgt n) a (.raw out)
  | poke (a : AWorld V) (s : Nat) (x y z X Y Z : Int) (r k : Nat) (v : V) (g : AGrid V) (px py pz : Nat)
      (h : a s = .grid g) (hx : x + X = px) (hy : y + Y = py) (hz : z + Z = pz) :
      Post dv a (.poke s x y z X Y Z r k v)
        (World.upd a s (.grid { g with cells := setRow g.cells px py pz 1 (fun _ => (g.cells px py pz).set r k v) })) .unit
  | peek (a : AWorld V) (s : Nat) (x y z X Y Z : Int) (r k : Nat) (g : AGrid V) (px py pz : Nat)
      (h : a s = .grid g) (hx : x + X = px) (hy : y + Y = py) (hz : z + Z = pz) :
      Post dv a (.peek s x y z X Y Z r k) a (.val (some (g.cells px py pz r k)))
  | dims (a : AWorld V) (s : Nat) (g : AGrid V) (h : a s = .grid g) : Post dv a (.dims s) a (.triple g.dim)
  | dimsBlank (a : AWorld V) (s : Nat) (h : a s = .blank) : Post dv a (.dims s) a (.triple ⟨0, 0, 0⟩)
  | extents (a : AWorld V) (s : Nat) (g : AGrid V) (e : Ext) (h : a s = .grid g) (he : g.ext = some e) :
      Post dv a (.extents s) a (.triple e)
  | byteSize (a : AWorld V) (s : Nat) (g : AGrid V) (e : Ext) (h : a s = .grid g) (he : selectSizes C.tr g.dim = .ok e) :
      Post dv a (.byteSize s) a (.nat (structBytes C.L * (e.x * e.y * e.z)))

/-- A history in which every operation respects its contract, with everything the caller observes. -/
inductive Run (dv : V) : AWorld V → List (Op V) → AWorld V → List (Out V) → Prop where
  | nil (a : AWorld V) : Run dv a [] a []
  | cons {a a' a'' : AWorld V} {op : Op V} {ops : List (Op V)} {out : Out V} {outs : List (Out V)}
      (hpost : Post C dv a op a' out) (h : Run dv a' ops a'' outs) : Run dv a (op :: ops) a'' (out :: outs)

/-- All operations of a program respect their contracts, whatever the specification lets happen. -/
def Legal (dv : V) : AWorld V → List (Op V) → Prop
  | _, [] => True
  | a, op :: ops => Pre C a op ∧ ∀ a' out, Post C dv a op a' out → Legal dv a' ops

/-- The state in which a program starts: no grids. -/
def start : AWorld V := fun _ => .absent

end Spec

/-! ### Vocabulary for statements about executions -/
section
variable {V : Type} [DecidableEq V]

/-- The state `w` is reached by a program all of whose operations respect their contracts. -/
def Valid (C : Cfg V) (dv : V) (w : World V) : Prop :=
  ∃ ops outs, Spec.Legal C dv Spec.start ops ∧ World.init.run C ops = .ok (w, outs)

/-- As `Valid`, and the program may continue with `ops`. -/
def ValidNext (C : Cfg V) (dv : V) (w : World V) (next : List (Op V)) : Prop :=
  ∃ ops outs, Spec.Legal C dv Spec.start (ops ++ next) ∧ World.init.run C ops = .ok (w, outs)

/-- Grid `s` exists and reports the dimensions `d`. -/
def DimsAre (C : Cfg V) (w : World V) (s : Nat) (d : Ext) : Prop := w.step C (.dims s) = .ok (w, .triple d)

/-- `s.get(x, y, z)` (into any struct `t`) yields the registered members of `c`. -/
def CellIs (C : Cfg V) (w : World V) (s x y z : Nat) (c : Cell V) : Prop :=
  ∀ t, w.step C (.get s x y z [t]) = .ok (w, .cells [overlay C.L c t])

/-- Coordinate inside of the dimensions. -/
def InDim (d : Ext) (x y z : Nat) : Prop := x < d.x ∧ y < d.y ∧ z < d.z

/-- Grid variables named by an operation. -/
def Op.names {V : Type} : Op V → List Nat
  | .new s _ | .resize s _ | .destroy s | .set s _ _ _ _ | .broadcast s _ _ _ _ _ | .get s _ _ _ _ | .load s _ _ _
  | .save s _ _ _ | .poke s _ _ _ _ _ _ _ _ _ | .peek s _ _ _ _ _ _ _ _ | .dims s | .extents s | .byteSize s => [s]
  | .copy s t | .assign s t | .swap s t => [s, t]

end
end LFA
