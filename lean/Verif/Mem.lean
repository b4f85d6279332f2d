import Verif.Base

/-
  Byte-level memory with object lifetimes.

  A byte is either indeterminate or byte number `i` of the representation of a value `v` of an
  object of type `ty`.  Two objects overlapping by a single byte therefore can not both be
  readable, and reading at a wrong address, with a wrong size, or an object that was never
  written is detected.
-/
set_option linter.unusedSectionVars false
namespace LFA

/-- Type of a stored object: `sizeof(T)` and whether it is trivial (no constructor/destructor obligations). -/
structure Ty where
  size : Nat
  triv : Bool
deriving DecidableEq, Repr

/-- One byte of memory. -/
inductive MByte (V : Type) where
  | undef
  | frag (v : V) (ty : Ty) (i : Nat)
deriving DecidableEq

/-- Is this byte part of an object with a non-trivial type? -/
def MByte.nonTriv {V : Type} : MByte V → Bool
  | .undef => false
  | .frag _ ty _ => !ty.triv

/-- A contiguous buffer of `size` bytes. -/
structure Block (V : Type) where
  size : Nat
  get : Nat → MByte V

namespace Block
variable {V : Type}

/-- Freshly allocated memory: all bytes indeterminate. -/
def fresh (n : Nat) : Block V := ⟨n, fun _ => .undef⟩

/-- The object of type `ty` at address `a` has value `v`. -/
def Holds (b : Block V) (a : Nat) (ty : Ty) (v : V) : Prop :=
  ∀ i, i < ty.size → b.get (a + i) = .frag v ty i

/-- No byte in `[a, a+s)` belongs to a live non-trivial object. -/
def NoNT (b : Block V) (a s : Nat) : Prop :=
  ∀ i, i < s → (b.get (a + i)).nonTriv = false

/-- Executable version of `NoNT`. -/
def noNT (b : Block V) (a s : Nat) : Bool :=
  (List.range s).all fun i => !(b.get (a + i)).nonTriv

/-- Value of the object of type `ty` at `a`, if there is such an object. -/
def rd [DecidableEq V] (b : Block V) (a : Nat) (ty : Ty) : Option V :=
  match b.get a with
  | .frag v _ _ =>
    if (List.range ty.size).all (fun i => decide (b.get (a + i) = .frag v ty i)) then some v else none
  | .undef => none

/-- Overwrite the bytes `[a, a+ty.size)` with the representation of `v`. -/
def put (b : Block V) (a : Nat) (ty : Ty) (v : V) : Block V :=
  ⟨b.size, fun j => if a ≤ j ∧ j < a + ty.size then .frag v ty (j - a) else b.get j⟩

/-- Make the bytes `[a, a+s)` indeterminate. -/
def wipe (b : Block V) (a s : Nat) : Block V :=
  ⟨b.size, fun j => if a ≤ j ∧ j < a + s then .undef else b.get j⟩

/-- Address range check; addresses are relative to the start of the buffer and may be negative. -/
def inB (b : Block V) (a : Int) (s : Nat) : Bool := decide (0 ≤ a) && decide (a + s ≤ b.size)

variable [DecidableEq V]

/-- `*(T*)a` as an rvalue. -/
def read (b : Block V) (a : Int) (ty : Ty) : Except UB V :=
  if b.inB a ty.size then
    match b.rd a.toNat ty with
    | some v => .ok v
    | none => .error (if ty.triv then .indet else .lifetime)
  else .error .oob

/-- `*(T*)a = v`: needs a live object unless `T` is trivial, and must not clobber other live objects. -/
def assign (b : Block V) (a : Int) (ty : Ty) (v : V) : Except UB (Block V) :=
  if b.inB a ty.size then
    if (if ty.triv then b.noNT a.toNat ty.size else (b.rd a.toNat ty).isSome) then .ok (b.put a.toNat ty v)
    else .error .lifetime
  else .error .oob

/-- `new ((T*)a) T(v)`: must not be placed on top of a live non-trivial object. -/
def construct (b : Block V) (a : Int) (ty : Ty) (v : V) : Except UB (Block V) :=
  if b.inB a ty.size then
    if b.noNT a.toNat ty.size then .ok (b.put a.toNat ty v) else .error .lifetime
  else .error .oob

/-- `((T*)a)->~T()`: needs a live object if `T` is non-trivial, no effect otherwise. -/
def destroy (b : Block V) (a : Int) (ty : Ty) : Except UB (Block V) :=
  if b.inB a ty.size then
    if ty.triv then .ok b
    else if (b.rd a.toNat ty).isSome then .ok (b.wipe a.toNat ty.size) else .error .lifetime
  else .error .oob

end Block

/-! ### Lemmas -/
namespace Block
variable {V : Type}

@[simp] theorem put_size (b : Block V) (a : Nat) (ty : Ty) (v : V) : (b.put a ty v).size = b.size := rfl
@[simp] theorem wipe_size (b : Block V) (a s : Nat) : (b.wipe a s).size = b.size := rfl

theorem noNT_iff (b : Block V) (a s : Nat) : b.noNT a s = true ↔ b.NoNT a s := by
  simp [noNT, NoNT]

theorem holds_put (b : Block V) (a : Nat) (ty : Ty) (v : V) : (b.put a ty v).Holds a ty v := by
  intro i hi
  have : a ≤ a + i ∧ a + i < a + ty.size := by omega
  simp only [put, this, and_self, if_true]
  congr 1; omega

theorem get_put_disj (b : Block V) (a : Nat) (ty : Ty) (v : V) (j : Nat) (h : j < a ∨ a + ty.size ≤ j) :
    (b.put a ty v).get j = b.get j := by
  have : ¬ (a ≤ j ∧ j < a + ty.size) := by omega
  simp only [put, this, if_false]

theorem get_wipe_disj (b : Block V) (a s : Nat) (j : Nat) (h : j < a ∨ a + s ≤ j) :
    (b.wipe a s).get j = b.get j := by
  have : ¬ (a ≤ j ∧ j < a + s) := by omega
  simp only [wipe, this, if_false]

/-- Address ranges `[a,a+s)` and `[a',a'+s')` do not share a byte. -/
def Disj (a s a' s' : Nat) : Prop := a + s ≤ a' ∨ a' + s' ≤ a

theorem holds_put_disj (b : Block V) {a : Nat} {ty : Ty} (v : V) {a' : Nat} {ty' : Ty} {v' : V}
    (hd : Disj a ty.size a' ty'.size) (h : b.Holds a' ty' v') : (b.put a ty v).Holds a' ty' v' := by
  intro i hi
  rw [get_put_disj]
  · exact h i hi
  · unfold Disj at hd; omega

theorem holds_wipe_disj (b : Block V) {a s : Nat} {a' : Nat} {ty' : Ty} {v' : V}
    (hd : Disj a s a' ty'.size) (h : b.Holds a' ty' v') : (b.wipe a s).Holds a' ty' v' := by
  intro i hi
  rw [get_wipe_disj]
  · exact h i hi
  · unfold Disj at hd; omega

theorem noNT_put_disj (b : Block V) {a : Nat} {ty : Ty} (v : V) {a' s' : Nat}
    (hd : Disj a ty.size a' s') (h : b.NoNT a' s') : (b.put a ty v).NoNT a' s' := by
  intro i hi
  rw [get_put_disj]
  · exact h i hi
  · unfold Disj at hd; omega

theorem noNT_wipe_disj (b : Block V) {a s : Nat} {a' s' : Nat}
    (hd : Disj a s a' s') (h : b.NoNT a' s') : (b.wipe a s).NoNT a' s' := by
  intro i hi
  rw [get_wipe_disj]
  · exact h i hi
  · unfold Disj at hd; omega

theorem noNT_wipe (b : Block V) (a s : Nat) : (b.wipe a s).NoNT a s := by
  intro i hi
  have : a ≤ a + i ∧ a + i < a + s := by omega
  simp only [wipe, this, and_self, if_true, MByte.nonTriv]

theorem Holds.noNT {b : Block V} {a : Nat} {ty : Ty} {v : V} (h : b.Holds a ty v) (ht : ty.triv = true) :
    b.NoNT a ty.size := by
  intro i hi
  rw [h i hi]; simp [MByte.nonTriv, ht]

variable [DecidableEq V]

theorem rd_of_holds {b : Block V} {a : Nat} {ty : Ty} {v : V} (hs : 0 < ty.size) (h : b.Holds a ty v) :
    b.rd a ty = some v := by
  have h0 := h 0 hs
  simp only [Nat.add_zero] at h0
  unfold rd
  rw [h0]
  simp only [List.all_eq_true, List.mem_range, decide_eq_true_eq]
  exact if_pos h

theorem holds_of_rd {b : Block V} {a : Nat} {ty : Ty} {v : V} (h : b.rd a ty = some v) : b.Holds a ty v := by
  unfold rd at h
  split at h
  · split at h
    · rename_i hall
      simp only [List.all_eq_true, List.mem_range, decide_eq_true_eq] at hall
      cases h
      exact hall
    · cases h
  · cases h

theorem rd_none_of_noNT {b : Block V} {a : Nat} {ty : Ty} (hs : 0 < ty.size) (ht : ty.triv = false)
    (h : b.NoNT a ty.size) : b.rd a ty = none := by
  cases hr : b.rd a ty with
  | none => rfl
  | some v =>
    have := holds_of_rd hr 0 hs
    have h0 := h 0 hs
    rw [this] at h0
    simp [MByte.nonTriv, ht] at h0

omit [DecidableEq V] in
theorem inB_ofNat {b : Block V} {a s : Nat} (h : a + s ≤ b.size) : b.inB (a : Int) s = true := by
  simp only [inB, Bool.and_eq_true, decide_eq_true_eq]
  omega

theorem read_of_holds {b : Block V} {a : Nat} {ty : Ty} {v : V} (hs : 0 < ty.size)
    (hb : a + ty.size ≤ b.size) (h : b.Holds a ty v) : b.read (a : Int) ty = .ok v := by
  simp [read, inB_ofNat hb, rd_of_holds hs h]

theorem assign_ok {b : Block V} {a : Nat} {ty : Ty} (v : V) (hs : 0 < ty.size)
    (hb : a + ty.size ≤ b.size)
    (h : (ty.triv = true ∧ b.NoNT a ty.size) ∨ ∃ v', b.Holds a ty v') :
    b.assign (a : Int) ty v = .ok (b.put a ty v) := by
  have key : (if ty.triv then b.noNT a ty.size else (b.rd a ty).isSome) = true := by
    by_cases ht : ty.triv = true
    · simp only [ht, if_true, noNT_iff]
      rcases h with h | ⟨v', h⟩
      · exact h.2
      · exact h.noNT ht
    · rcases h with h | ⟨v', h⟩
      · exact absurd h.1 ht
      · simp [ht, rd_of_holds hs h]
  simp only [assign, inB_ofNat hb, if_true, Int.toNat_natCast, key]

theorem construct_ok {b : Block V} {a : Nat} {ty : Ty} (v : V)
    (hb : a + ty.size ≤ b.size) (h : b.NoNT a ty.size) :
    b.construct (a : Int) ty v = .ok (b.put a ty v) := by
  simp only [construct, inB_ofNat hb, if_true, Int.toNat_natCast, (noNT_iff _ _ _).2 h]

theorem destroy_triv {b : Block V} {a : Nat} {ty : Ty} (hb : a + ty.size ≤ b.size) (ht : ty.triv = true) :
    b.destroy (a : Int) ty = .ok b := by
  simp only [destroy, inB_ofNat hb, if_true, ht]

theorem destroy_ok {b : Block V} {a : Nat} {ty : Ty} {v : V} (hs : 0 < ty.size) (hb : a + ty.size ≤ b.size)
    (ht : ty.triv = false) (h : b.Holds a ty v) :
    b.destroy (a : Int) ty = .ok (b.wipe a ty.size) := by
  simp [destroy, inB_ofNat hb, ht, rd_of_holds hs h]

end Block
end LFA
