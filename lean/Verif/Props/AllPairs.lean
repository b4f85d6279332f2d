import Verif.AllPairs
import Verif.Props.Mover
import Verif.Props.Arith

/-
  C75: kernels which combine each element of a soa_array with all elements compute what scalar loops over lists compute.
-/
set_option linter.unusedSectionVars false
namespace LFA.GK
open Props (ArrValid ListIs)
open SV (Expr Entry FEnv FOps Mem Writes Cmp Rel lane Faithful Transfers Reqs LaneWise Calc)

variable {V : Type} [DecidableEq V] {w : Nat}

/-! ### Scalar code -/

/-- A number in a struct. -/
def num (B : Bits w V) (c : Cell V) (r k : Nat) : BitVec w := (B.bits (c r k)).getD 0

/-- A statement of scalar code: local variables and the struct to which results are assigned. `c` is the element of the outer loop, `o` the
    one of the inner loop. -/
def Stmt.scalar (B : Bits w V) (F : Calc w) (c o : Cell V) (x : (Nat → BitVec w) × Cell V) : Stmt w → (Nat → BitVec w) × Cell V
  | .load d r k => (Function.update x.1 d (num B c r k), x.2)
  | .other d r k => (Function.update x.1 d (num B o r k), x.2)
  | .assign d e => (Function.update x.1 d (e.scalar F.F x.1), x.2)
  | .quot d u v => (Function.update x.1 d (F.ds (u.scalar F.F x.1) (v.scalar F.F x.1)), x.2)
  | .store r k e => (x.1, x.2.set r k (B.val (e.scalar F.F x.1)))

/-- What the kernel makes of an element `c` and of the struct `b` which receives the results; `l` is the list of all elements. -/
def AllPairs.elem (P : AllPairs w V) (F : Calc w) (l : List (Cell V)) (c b : Cell V) : Cell V :=
  (P.post.foldl (Stmt.scalar P.B F c c)
    (l.foldl (fun x o => P.inner.foldl (Stmt.scalar P.B F c o) x)
      (P.pre.foldl (Stmt.scalar P.B F c c) (fun _ => 0, b)))).2

/-- A time step for lists: the new list and the old one. -/
def AllPairs.scalar (P : AllPairs w V) (F : Calc w) (p : List (Cell V) × List (Cell V)) : List (Cell V) × List (Cell V) :=
  (List.zipWith (P.elem F p.1) p.1 p.2, p.1)

/-- Time steps for lists. -/
def AllPairs.scalars (P : AllPairs w V) (F : Calc w) : Nat → List (Cell V) × List (Cell V) → List (Cell V) × List (Cell V)
  | 0, p => p
  | t + 1, p => P.scalars F t (P.scalar F p)

/-! ### What is needed -/

/-- Positions which a statement reads. -/
def Stmt.reads : Stmt w → List (Nat × Nat)
  | .load _ r k | .other _ r k => [(r, k)]
  | _ => []

/-- Positions which a statement accesses. -/
def Stmt.pos : Stmt w → List (Nat × Nat)
  | .load _ r k | .other _ r k | .store r k _ => [(r, k)]
  | _ => []

/-- Expressions are of the given kind. -/
def Stmt.only (d f c : Bool) : Stmt w → Bool
  | .assign _ e | .store _ _ e => e.only d f c
  | .quot _ x y => x.only d f c && y.only d f c
  | _ => true

/-- The statement does not refer to the element of the inner loop. -/
def Stmt.own : Stmt w → Bool
  | .other .. => false
  | _ => true

def AllPairs.stmts (P : AllPairs w V) : List (Stmt w) := P.pre ++ (P.inner ++ P.post)

/-- The structs, arrays of capacity `N` and the kernel fit: members are of the type of the vectors, blocks of the arrays are aligned as the
    vectors (of `A` elements, aligned to `al`) demand. -/
structure AllPairs.Fits (P : AllPairs w V) (N A al : Nat) : Prop where
  wf : P.L.WF
  triv : ∀ m ∈ P.L, m.ty.triv = true
  mem : ∀ s ∈ P.stmts, ∀ p ∈ s.pos, ∃ m, P.L[p.1]? = some m ∧ p.2 < m.elems ∧ m.ty.size = w / 8 ∧ w / 8 ∣ N * offset P.L p.1 ∧
    ∀ t < 2, ∀ q, q * A < N → al ∣ P.base t + slot N (offset P.L p.1) m.ty.size p.2 (q * A)
  base : ∀ t, w / 8 ∣ P.base t
  own : ∀ s ∈ P.pre ++ P.post, s.own = true

/-- All members which are read are numbers. -/
def AllPairs.Numbers (P : AllPairs w V) (l : List (Cell V)) : Prop :=
  ∀ c ∈ l, ∀ s ∈ P.stmts, ∀ p ∈ s.reads, (P.B.bits (c p.1 p.2)).isSome = true

/-! ### Arrays -/

theorem acc_ref {L : Layout V} (hL : L.WF) {N i r k : Nat} {m : Member V} (hm : L[r]? = some m) (hk : k < m.elems) :
    (SArr.acc N (i : Nat)).userRef L r m k = ((slot N (offset L r) m.ty.size k i : Nat) : Int) := by
  have h0 := hL.elems_pos hm
  have hA : (SArr.acc N (i : Nat)).At i := accAt_At _ _
  have hp : (SArr.acc N (i : Nat)).ext.prod = N := by simp [SArr.acc, accAt, Ext.prod]
  unfold Acc.userRef
  cases ha : m.arity with
  | none =>
    have : k = 0 := by rw [elems_none ha] at hk; omega
    subst this
    simp only
    rw [Acc.member_slot L hA r m 0 h0, hp]
  | some n => simp only; rw [Acc.arrayRef_slot L hA r m k h0, hp]

theorem acc_arr {L : Layout V} (hL : L.WF) {N i r k : Nat} {m : Member V} (hm : L[r]? = some m) :
    (SArr.acc N (i : Nat)).arrayRef L r m k = ((slot N (offset L r) m.ty.size k i : Nat) : Int) := by
  have h0 := hL.elems_pos hm
  have hA : (SArr.acc N (i : Nat)).At i := accAt_At _ _
  have hp : (SArr.acc N (i : Nat)).ext.prod = N := by simp [SArr.acc, accAt, Ext.prod]
  rw [Acc.arrayRef_slot L hA r m k h0, hp]

theorem slot_add (N off s k i q : Nat) : slot N off s k (i + q) = slot N off s k i + q * s := by
  unfold slot; ring

/-- The address of a block, counted in elements. -/
theorem block_elem {L : Layout V} (hL : L.WF) {base N i r k : Nat} {m : Member V} (hw : 0 < w / 8) (hm : L[r]? = some m) (hk : k < m.elems)
    (hs : m.ty.size = w / 8) (hb : w / 8 ∣ base) (ho : w / 8 ∣ N * offset L r) :
    ∃ q : Int, accElem (w := w) L base N i r k m = some q ∧ q * (w / 8 : Nat) = ((base + slot N (offset L r) m.ty.size k i : Nat) : Int) ∧
      ∀ j : Nat, (q + (j : Nat)) * (w / 8 : Nat) - base = ((slot N (offset L r) m.ty.size k (i + j) : Nat) : Int) := by
  have hd : w / 8 ∣ base + slot N (offset L r) m.ty.size k i := by
    refine Nat.dvd_add hb ?_
    unfold slot
    rw [hs, Nat.mul_add]
    exact Nat.dvd_add (Nat.dvd_add ⟨N * k, by ring⟩ ho) (Dvd.dvd.mul_left (dvd_refl _) _)
  obtain ⟨q, hq⟩ : ((w / 8 : Nat) : Int) ∣ base + ((slot N (offset L r) m.ty.size k i : Nat) : Int) := by
    rw [← Int.natCast_add]; exact Int.natCast_dvd_natCast.2 hd
  refine ⟨q, ?_, by rw [Int.mul_comm, ← hq, Int.natCast_add], fun j => ?_⟩
  · unfold accElem
    rw [acc_ref hL hm hk, if_pos ⟨hs, ⟨q, hq⟩⟩, hq, Int.mul_ediv_cancel_left _ (by omega)]
  · rw [slot_add, Int.add_mul, Int.mul_comm q, ← hq, ← hs]
    push_cast
    ring

section
variable {L : Layout V} {B : Bits w V} {E : FEnv} {e : Entry w} {Q : Reqs} {base N i r k : Nat} {m : Member V} {a : SArr V} {l : List (Cell V)}

theorem accload_ok (hL : L.WF) (T : Transfers e.impl Q E) (hw : 0 < w / 8) (hb : w / 8 ∣ base) (hm : L[r]? = some m) (hk : k < m.elems)
    (hs : m.ty.size = w / 8) (ho : w / 8 ∣ N * offset L r) (hal : Q.any ∣ base + slot N (offset L r) m.ty.size k i)
    (hR : LFA.Rep L ⟨a.N, l.length, a.data⟩ N l)
    (hn : ∀ j < e.impl.N, ∀ c, l[i + j]? = some c → (B.bits (c r k)).isSome = true) (hi : i + e.impl.N ≤ l.length) :
    ∃ y, accLoad L B E base e a i r k = some y ∧ ∀ q < e.impl.N, ∀ c, l[i + q]? = some c → lane e.impl y q = num B c r k := by
  have hc : a.N = N := hR.cap
  obtain ⟨q, hq, hq0, hq'⟩ := block_elem (base := base) (i := i) hL hw hm hk hs hb ho
  have hview : ∀ j < e.impl.N, ∀ c, l[i + j]? = some c → view B m.ty base a.data (q + (j : Nat)) = B.bits (c r k) := by
    intro j hj c hc'
    have hr := hR.peekAt hL (i := i + j) hc' hm hk
    simp only [hc] at hr
    rw [acc_arr hL hm] at hr
    unfold view
    rw [hq' j, hr]
  obtain ⟨y, k1, k2⟩ := Mode.load_ok T .plain (view B m.ty base a.data) q (by
      rw [hq0]; exact Int.natCast_dvd_natCast.2 hal) fun j hj => by
    have hj' : i + j < l.length := by omega
    rw [hview j hj _ (List.getElem?_eq_getElem hj')]
    exact hn j hj _ (List.getElem?_eq_getElem hj')
  refine ⟨y, ?_, fun j hj c hc' => ?_⟩
  · unfold accLoad
    simp only [hm, hc, hq, Option.bind_some]
    exact k1
  · have := k2 j hj
    rw [hview j hj c hc'] at this
    rw [num, this]
    rfl

theorem accread_ok (hL : L.WF) (hm : L[r]? = some m) (hk : k < m.elems) (hR : LFA.Rep L ⟨a.N, l.length, a.data⟩ N l) {c : Cell V} (hc : l[i]? = some c)
    (hn : (B.bits (c r k)).isSome = true) : accRead L B a i r k = some (num B c r k) := by
  have h1 := hR.peekAt hL hc hm hk
  simp only at h1
  rw [acc_arr hL hm] at h1
  obtain ⟨x, hx⟩ := Option.isSome_iff_exists.1 hn
  unfold accRead
  simp only [hm]
  rw [acc_ref hL hm hk, h1]
  simp only [hx, num, Option.getD_some]

theorem cell_set_set (c : Cell V) (r k : Nat) (x y : V) : (c.set r k x).set r k y = c.set r k y := by
  funext r' k'
  simp only [Cell.set]
  split <;> simp_all

/-- Stores to elements of an array. -/
theorem arrput_ok (hL : L.WF) (hm : L[r]? = some m) (hk : k < m.elems) {q : Int} {A : Nat}
    (hq : ∀ j : Nat, (q + (j : Nat)) * (w / 8 : Nat) - base = ((slot N (offset L r) m.ty.size k (i + j) : Nat) : Int)) :
    ∀ (ws : Writes w) (a : SArr V) (l : List (Cell V)), LFA.Rep L a N l → i + A ≤ l.length → (∀ c ∈ ws, ∃ j < A, c.1 = q + (j : Nat)) →
      ∃ d l', put B m.ty base ws a.data = .ok d ∧ LFA.Rep L { a with data := d } N l' ∧ l'.length = l.length ∧
        (∀ j < A, ∀ c, l[i + j]? = some c →
          l'[i + j]? = some (match last (q + (j : Nat)) ws with | some x => c.set r k (B.val x) | none => c)) ∧
        ∀ p, (∀ j < A, p ≠ i + j) → l'[p]? = l[p]? := by
  intro ws
  induction ws with
  | nil =>
    intro a l hR hi _
    exact ⟨a.data, l, rfl, hR, rfl, fun j hj c hc => by simpa [last] using hc, fun _ _ => rfl⟩
  | cons y ws ih =>
    intro a l hR hi hws
    obtain ⟨j0, hj0, hy⟩ := hws y List.mem_cons_self
    obtain ⟨qy, xy⟩ := y
    simp only at hy
    subst hy
    have hlt : i + j0 < l.length := by omega
    obtain ⟨d, h1, h2⟩ := hR.pokeAt hL (List.getElem?_eq_getElem hlt) hm hk (B.val xy)
    rw [hR.cap, acc_arr hL hm] at h1
    obtain ⟨d', l', k1, k2, k3, k4, k5⟩ := ih _ _ h2 (by simpa using hi) fun c hc => hws c (List.mem_cons_of_mem _ hc)
    refine ⟨d', l', ?_, k2, by rw [k3, List.length_set], fun j hj c hc => ?_, fun p hp => ?_⟩
    · rw [put, hq j0, h1]
      exact k1
    · by_cases hjj : j = j0
      · subst hjj
        have hc' : l[i + j] = c := by rw [List.getElem?_eq_getElem hlt] at hc; exact Option.some.inj hc
        rw [k4 j hj _ (by rw [List.getElem?_set_self hlt]), last, hc']
        cases last (q + (j : Nat)) ws with
        | some x => simp only [cell_set_set]
        | none => simp
      · rw [k4 j hj c (by rw [List.getElem?_set_ne (by omega)]; exact hc), last]
        cases last (q + (j : Nat)) ws with
        | some x => rfl
        | none =>
          simp only
          rw [if_neg (by omega)]
    · rw [k5 p hp, List.getElem?_set_ne (Ne.symm (hp j0 hj0))]

theorem accstore_ok (hL : L.WF) (T : Transfers e.impl Q E) (hw : 0 < w / 8) (hb : w / 8 ∣ base) (hm : L[r]? = some m) (hk : k < m.elems)
    (hs : m.ty.size = w / 8) (ho : w / 8 ∣ N * offset L r) (hal : Q.any ∣ base + slot N (offset L r) m.ty.size k i)
    (hR : LFA.Rep L ⟨a.N, l.length, a.data⟩ N l) (hi : i + e.impl.N ≤ l.length) (v : e.impl.V) :
    ∃ d l', accStore L B E base e a i r k v = some { a with data := d } ∧ LFA.Rep L ⟨a.N, l'.length, d⟩ N l' ∧ l'.length = l.length ∧
      (∀ j < e.impl.N, ∀ c, l[i + j]? = some c → l'[i + j]? = some (c.set r k (B.val (lane e.impl v j)))) ∧
      ∀ p, (∀ j < e.impl.N, p ≠ i + j) → l'[p]? = l[p]? := by
  obtain ⟨q, hq, hq0, hq'⟩ := block_elem (base := base) (i := i) hL hw hm hk hs hb ho
  obtain ⟨ws, h1, h2, h3⟩ := store_last (Mode.store_ok T .plain (al := Q.any) rfl) (by omega) v q (by
    rw [hq0]; exact Int.natCast_dvd_natCast.2 hal)
  obtain ⟨d, l', k1, k2, k3, k4, k5⟩ := arrput_ok (B := B) hL hm hk hq' ws _ l hR hi h2
  refine ⟨d, l', ?_, by rw [k3]; exact k2, k3, fun j hj c hc => by rw [k4 j hj c hc, h3 j hj], k5⟩
  unfold accStore
  have hc : a.N = N := hR.cap
  simp only at k1
  simp only [hm, hc, hq, Option.bind_some, h1, k1]

end

/-! ### The loops -/

/-- The code, the vectors and the target fit. -/
structure AllPairs.Ok (P : AllPairs w V) (e : Entry w) (F : Calc w) (Q : Reqs) (N : Nat) (d f c : Bool) : Prop where
  fits : P.Fits N e.impl.N Q.any
  faithful : Faithful e.impl e.cmp P.E F.F d f c
  quot : LaneWise e.impl (e.impl.divSqrt P.E) F.ds
  transfers : Transfers e.impl Q P.E
  only : ∀ s ∈ P.stmts, s.only d f c = true
  w : 0 < w / 8
  pos : 0 < e.impl.N

/-- Local variables are those of the scalar code, for each lane `j`; in the array which receives the results (initially `l`) the structs from
    index `i` on are those of the scalar code, other structs have not been changed. -/
structure AllPairs.Inv (P : AllPairs w V) (e : Entry w) (N i n : Nat) (l : List (Cell V)) (x : (Nat → e.impl.V) × SArr V)
    (S : Nat → (Nat → BitVec w) × Cell V) : Prop where
  regs : ∀ j < e.impl.N, ∀ q, lane e.impl (x.1 q) j = (S j).1 q
  size : x.2.n = n
  arr : ∃ l', LFA.Rep P.L ⟨x.2.N, l'.length, x.2.data⟩ N l' ∧ l'.length = l.length ∧ (∀ j < e.impl.N, l'[i + j]? = some (S j).2) ∧
    ∀ p, (∀ j < e.impl.N, p ≠ i + j) → l'[p]? = l[p]?

section
variable {P : AllPairs w V} {e : Entry w} {F : Calc w} {Q : Reqs} {N : Nat} {d f c : Bool} {a : SArr V} {pA l : List (Cell V)} {i n : Nat}
  {cs : Nat → Cell V}

theorem AllPairs.update_regs {x : Nat → e.impl.V} {S : Nat → (Nat → BitVec w) × Cell V} {v : e.impl.V} {y : Nat → BitVec w} {t : Nat}
    (h : ∀ j < e.impl.N, ∀ q, lane e.impl (x q) j = (S j).1 q) (hv : ∀ j < e.impl.N, lane e.impl v j = y j) :
    ∀ j < e.impl.N, ∀ q, lane e.impl (Function.update x t v q) j = Function.update (S j).1 t (y j) q := by
  intro j hj q
  by_cases hq : q = t
  · subst hq; simp [hv j hj]
  · simp [Function.update_of_ne hq, h j hj q]

theorem AllPairs.one_ok (H : P.Ok e F Q N d f c) (hA : LFA.Rep P.L ⟨a.N, pA.length, a.data⟩ N pA) {b : Nat} (hi : i = b * e.impl.N)
    (hcs : ∀ j < e.impl.N, pA[i + j]? = some (cs j)) (hl : i + e.impl.N ≤ l.length)
    (hn : ∀ j < e.impl.N, P.Numbers [cs j]) {t : Option Nat} {o : Cell V} (ho : ∀ q, t = some q → pA[q]? = some o ∧ P.Numbers [o])
    {x : (Nat → e.impl.V) × SArr V} {S : Nat → (Nat → BitVec w) × Cell V} (hx : P.Inv e N i n l x S) {s : Stmt w} (hs : s ∈ P.stmts)
    (hown : s.own = true ∨ t.isSome = true) :
    ∃ x', P.one e a i t x s = some x' ∧ P.Inv e N i n l x' fun j => Stmt.scalar P.B F (cs j) o (S j) s := by
  have hpA : i + e.impl.N ≤ pA.length := by
    have := (List.getElem?_eq_some_iff.1 (hcs (e.impl.N - 1) (by have := H.pos; omega))).1
    have := H.pos
    omega
  have hN : b * e.impl.N < N := by have := hA.fits; have := H.pos; omega
  cases s with
  | load dd r k =>
    obtain ⟨m, h1, h2, h3, h4, h5⟩ := H.fits.mem _ hs (r, k) (by simp [Stmt.pos])
    obtain ⟨y, k1, k2⟩ := accload_ok (B := P.B) H.fits.wf H.transfers H.w (H.fits.base 0) h1 h2 h3 h4 (by rw [hi]; exact h5 0 (by omega) b hN) hA
      (fun j hj c' hc' => by
        rw [hcs j hj] at hc'; cases hc'
        exact hn j hj _ List.mem_cons_self _ hs (r, k) (by simp [Stmt.reads])) hpA
    refine ⟨(Function.update x.1 dd y, x.2), by simp only [AllPairs.one, k1, Option.map_some], ?_, hx.size, hx.arr⟩
    exact AllPairs.update_regs hx.regs fun j hj => k2 j hj _ (hcs j hj)
  | other dd r k =>
    obtain ⟨q, rfl⟩ : ∃ q, t = some q := by
      rcases hown with h | h
      · simp [Stmt.own] at h
      · exact Option.isSome_iff_exists.1 h
    obtain ⟨ho1, ho2⟩ := ho q rfl
    obtain ⟨m, h1, h2, -⟩ := H.fits.mem _ hs (r, k) (by simp [Stmt.pos])
    have k1 := accread_ok (B := P.B) H.fits.wf h1 h2 hA ho1 (ho2 _ List.mem_cons_self _ hs (r, k) (by simp [Stmt.reads]))
    refine ⟨(Function.update x.1 dd (e.impl.bcast P.E (num P.B o r k)), x.2), by simp only [AllPairs.one, Option.bind_some, k1, Option.map_some], ?_,
      hx.size, hx.arr⟩
    exact AllPairs.update_regs hx.regs fun j hj => H.faithful.bcast _ j hj
  | assign dd ex =>
    obtain ⟨v, k1, k2⟩ := H.faithful.vec (fun q => some (x.1 q)) (fun j => (S j).1) ex (H.only _ hs) fun q _ => ⟨x.1 q, rfl, fun j hj => hx.regs j hj q⟩
    refine ⟨(Function.update x.1 dd v, x.2), by simp only [AllPairs.one, k1, Option.map_some], ?_, hx.size, hx.arr⟩
    exact AllPairs.update_regs hx.regs k2
  | quot dd xx yy =>
    have ho := H.only _ hs
    simp only [Stmt.only, Bool.and_eq_true] at ho
    obtain ⟨u, k1, k2⟩ := H.faithful.vec (fun q => some (x.1 q)) (fun j => (S j).1) xx ho.1 fun q _ => ⟨x.1 q, rfl, fun j hj => hx.regs j hj q⟩
    obtain ⟨v, k3, k4⟩ := H.faithful.vec (fun q => some (x.1 q)) (fun j => (S j).1) yy ho.2 fun q _ => ⟨x.1 q, rfl, fun j hj => hx.regs j hj q⟩
    obtain ⟨z, k5, k6⟩ := H.quot u v
    refine ⟨(Function.update x.1 dd z, x.2), by simp only [AllPairs.one, k1, k3, k5, Option.bind_some, Option.map_some], ?_, hx.size, hx.arr⟩
    exact AllPairs.update_regs hx.regs fun j hj => by rw [k6 j hj, k2 j hj, k4 j hj]
  | store r k ex =>
    obtain ⟨v, k1, k2⟩ := H.faithful.vec (fun q => some (x.1 q)) (fun j => (S j).1) ex (H.only _ hs) fun q _ => ⟨x.1 q, rfl, fun j hj => hx.regs j hj q⟩
    obtain ⟨m, h1, h2, h3, h4, h5⟩ := H.fits.mem _ hs (r, k) (by simp [Stmt.pos])
    obtain ⟨l', g1, g2, g3, g4⟩ := hx.arr
    obtain ⟨dt, l2, m1, m2, m3, m4, m5⟩ := accstore_ok (B := P.B) (i := i) H.fits.wf H.transfers H.w (H.fits.base 1) h1 h2 h3 h4
      (by rw [hi]; exact h5 1 (by omega) b hN) g1 (by omega) v
    refine ⟨(x.1, { x.2 with data := dt }), by simp only [AllPairs.one, k1, Option.bind_some, m1, Option.map_some], hx.regs, hx.size, l2, m2,
      m3.trans g2, fun j hj => ?_, fun p hp => (m5 p hp).trans (g4 p hp)⟩
    rw [m4 j hj _ (g3 j hj), k2 j hj]
    rfl

theorem AllPairs.all_ok (H : P.Ok e F Q N d f c) (hA : LFA.Rep P.L ⟨a.N, pA.length, a.data⟩ N pA) {b : Nat} (hi : i = b * e.impl.N)
    (hcs : ∀ j < e.impl.N, pA[i + j]? = some (cs j)) (hl : i + e.impl.N ≤ l.length)
    (hn : ∀ j < e.impl.N, P.Numbers [cs j]) {t : Option Nat} {o : Nat → Cell V}
    (ho : ∀ q, t = some q → ∃ o', pA[q]? = some o' ∧ P.Numbers [o'] ∧ ∀ j, o j = o') :
    ∀ (ss : List (Stmt w)) (x : (Nat → e.impl.V) × SArr V) (S : Nat → (Nat → BitVec w) × Cell V), P.Inv e N i n l x S → (∀ s ∈ ss, s ∈ P.stmts) →
      (∀ s ∈ ss, s.own = true ∨ t.isSome = true) →
      ∃ x', P.all e a i t ss x = some x' ∧ P.Inv e N i n l x' fun j => ss.foldl (Stmt.scalar P.B F (cs j) (o j)) (S j) := by
  intro ss
  induction ss with
  | nil => intro x S hx _ _; exact ⟨x, rfl, hx⟩
  | cons s ss ih =>
    intro x S hx hs hown
    have hsc : ∀ o', (∀ q, t = some q → pA[q]? = some o' ∧ P.Numbers [o']) → (∀ j, Stmt.scalar P.B F (cs j) (o j) (S j) s = Stmt.scalar P.B F (cs j) o' (S j) s) →
        ∃ x', P.all e a i t (s :: ss) x = some x' ∧ P.Inv e N i n l x' fun j => (s :: ss).foldl (Stmt.scalar P.B F (cs j) (o j)) (S j) := by
      intro o' ho' heq
      obtain ⟨x1, h1, h2⟩ := AllPairs.one_ok H hA hi hcs hl hn ho' hx (hs s List.mem_cons_self) (hown s List.mem_cons_self)
      obtain ⟨x2, h3, h4⟩ := ih x1 _ h2 (fun s hs' => hs s (List.mem_cons_of_mem _ hs')) (fun s hs' => hown s (List.mem_cons_of_mem _ hs'))
      refine ⟨x2, by simp only [AllPairs.all, h1, Option.bind_some, h3], ?_⟩
      simp only [List.foldl_cons, heq]
      exact h4
    cases t with
    | some q =>
      obtain ⟨o', ho1, ho2, ho3⟩ := ho q rfl
      exact hsc o' (fun q' hq' => by cases hq'; exact ⟨ho1, ho2⟩) fun j => by rw [ho3 j]
    | none =>
      have hw := hown s List.mem_cons_self
      simp only [Option.isSome_none, Bool.false_eq_true, or_false] at hw
      exact hsc (o 0) (fun q' hq' => by cases hq') fun j => by cases s <;> first | rfl | (simp [Stmt.own] at hw)

theorem AllPairs.loop_ok (H : P.Ok e F Q N d f c) (hA : LFA.Rep P.L ⟨a.N, pA.length, a.data⟩ N pA) {b : Nat} (hi : i = b * e.impl.N)
    (hcs : ∀ j < e.impl.N, pA[i + j]? = some (cs j)) (hl : i + e.impl.N ≤ l.length) (hn : ∀ j < e.impl.N, P.Numbers [cs j]) {m : Nat}
    (hm : m ≤ pA.length) (hnA : P.Numbers (pA.take m)) :
    ∀ (q j0 : Nat) (x : (Nat → e.impl.V) × SArr V) (S : Nat → (Nat → BitVec w) × Cell V), j0 + q = m → P.Inv e N i n l x S →
      ∃ x', P.loop e a i q j0 x = some x' ∧
        P.Inv e N i n l x' fun j => ((pA.take m).drop j0).foldl (fun x o => P.inner.foldl (Stmt.scalar P.B F (cs j) o) x) (S j) := by
  intro q
  induction q with
  | zero =>
    intro j0 x S hq hx
    refine ⟨x, rfl, ?_⟩
    rw [List.drop_eq_nil_of_le (by simp; omega)]
    exact hx
  | succ q ih =>
    intro j0 x S hq hx
    have hlt : j0 < (pA.take m).length := by simp; omega
    have hlt' : j0 < pA.length := by omega
    have e1 : (pA.take m)[j0] = pA[j0] := List.getElem_take
    obtain ⟨x1, h1, h2⟩ := AllPairs.all_ok H hA hi hcs hl hn (t := some j0) (o := fun _ => pA[j0]) (fun q hq => by
      cases hq
      refine ⟨pA[j0], List.getElem?_eq_getElem hlt', ?_, fun _ => rfl⟩
      intro c hc
      rw [List.mem_singleton.1 hc, ← e1]
      exact hnA _ (List.getElem_mem hlt)) P.inner x S hx (fun s hs => by simp [AllPairs.stmts, hs]) (fun _ _ => .inr rfl)
    obtain ⟨x2, h3, h4⟩ := ih (j0 + 1) x1 _ (by omega) h2
    refine ⟨x2, by simp only [AllPairs.loop, h1, Option.bind_some, h3], ?_⟩
    rw [List.drop_eq_getElem_cons hlt, e1]
    exact h4

/-- One block of elements. -/
theorem AllPairs.body_ok (H : P.Ok e F Q N d f c) (hA : LFA.Rep P.L ⟨a.N, pA.length, a.data⟩ N pA) {b : Nat} (hi : i = b * e.impl.N)
    (hcs : ∀ j < e.impl.N, pA[i + j]? = some (cs j)) (hn : ∀ j < e.impl.N, P.Numbers [cs j]) {m : Nat}
    (hm : m ≤ pA.length) (hnA : P.Numbers (pA.take m)) {y : SArr V} (hB : LFA.Rep P.L ⟨y.N, l.length, y.data⟩ N l) {bs : Nat → Cell V}
    (hbs : ∀ j < e.impl.N, l[i + j]? = some (bs j)) :
    ∃ y' l', P.body e m a i y = some y' ∧ y'.n = y.n ∧ LFA.Rep P.L ⟨y'.N, l'.length, y'.data⟩ N l' ∧ l'.length = l.length ∧
      (∀ j < e.impl.N, l'[i + j]? = some (P.elem F (pA.take m) (cs j) (bs j))) ∧ ∀ p, (∀ j < e.impl.N, p ≠ i + j) → l'[p]? = l[p]? := by
  have hl : i + e.impl.N ≤ l.length := by
    have := (List.getElem?_eq_some_iff.1 (hbs (e.impl.N - 1) (by have := H.pos; omega))).1
    have := H.pos
    omega
  have hown : ∀ s ∈ P.pre ++ P.post, s.own = true ∨ (none : Option Nat).isSome = true := fun s hs => .inl (H.fits.own s hs)
  have h0 : P.Inv e N i y.n l (fun _ => e.impl.bcast P.E 0, y) fun j => (fun _ => 0, bs j) :=
    ⟨fun j hj q => H.faithful.bcast 0 j hj, rfl, l, hB, rfl, hbs, fun _ _ => rfl⟩
  obtain ⟨x1, h1, h2⟩ := AllPairs.all_ok H hA hi hcs hl hn (t := none) (o := cs) (fun _ h => by cases h) P.pre _ _ h0
    (fun s hs => by simp [AllPairs.stmts, hs]) (fun s hs => hown s (List.mem_append_left _ hs))
  obtain ⟨x2, h3, h4⟩ := AllPairs.loop_ok H hA hi hcs hl hn hm hnA m 0 x1 _ (by omega) h2
  obtain ⟨x3, h5, h6⟩ := AllPairs.all_ok H hA hi hcs hl hn (t := none) (o := cs) (fun _ h => by cases h) P.post _ _ h4
    (fun s hs => by simp [AllPairs.stmts, hs]) (fun s hs => hown s (List.mem_append_right _ hs))
  obtain ⟨l', g1, g2, g3, g4⟩ := h6.arr
  refine ⟨x3.2, l', by simp only [AllPairs.body, h1, Option.bind_some, h3, h5, Option.map_some], h6.size, g1, g2, fun j hj => ?_, g4⟩
  rw [g3 j hj, List.drop_zero]
  rfl

/-- The outer loop, for `K` blocks. -/
theorem AllPairs.outer_ok (H : P.Ok e F Q N d f c) (hA : LFA.Rep P.L ⟨a.N, pA.length, a.data⟩ N pA) {m K : Nat} (hm : m ≤ pA.length)
    (hK : K * e.impl.N ≤ pA.length) (hlen : pA.length = l.length) (hnA : P.Numbers (pA.take m)) (hnK : P.Numbers (pA.take (K * e.impl.N)))
    (hb : ∀ b, b * e.impl.N + P.slack < m ↔ b < K) :
    ∀ (q b : Nat) (g : Nat) (y : SArr V) (l' : List (Cell V)), b + q = K → q ≤ g → LFA.Rep P.L ⟨y.N, l'.length, y.data⟩ N l' → y.n = n →
      l'.length = l.length →
      (∀ p ca cb, p < b * e.impl.N → pA[p]? = some ca → l[p]? = some cb → l'[p]? = some (P.elem F (pA.take m) ca cb)) →
      (∀ p, b * e.impl.N ≤ p → l'[p]? = l[p]?) →
      ∃ y' l'', P.outer e m a g (b * e.impl.N) y = some y' ∧ y'.n = n ∧ LFA.Rep P.L ⟨y'.N, l''.length, y'.data⟩ N l'' ∧ l''.length = l.length ∧
        (∀ p ca cb, p < K * e.impl.N → pA[p]? = some ca → l[p]? = some cb → l''[p]? = some (P.elem F (pA.take m) ca cb)) ∧
        ∀ p, K * e.impl.N ≤ p → l''[p]? = l[p]? := by
  intro q
  induction q with
  | zero =>
    intro b g y l' hq _ hy hyn hl' h1 h2
    obtain rfl : b = K := by omega
    have hnot : ¬ b * e.impl.N + P.slack < m := fun h => Nat.lt_irrefl _ ((hb b).1 h)
    refine ⟨y, l', ?_, hyn, hy, hl', h1, h2⟩
    cases g <;> simp only [AllPairs.outer, if_neg hnot]
  | succ q ih =>
    intro b g y l' hq hg hy hyn hl' h1 h2
    obtain ⟨g', rfl⟩ : ∃ g', g = g' + 1 := ⟨g - 1, by omega⟩
    have hlt : b * e.impl.N + P.slack < m := (hb b).2 (by omega)
    have hKe : K * e.impl.N = b * e.impl.N + e.impl.N + q * e.impl.N := by rw [← hq]; ring
    have hcs : ∀ j < e.impl.N, pA[b * e.impl.N + j]? = some ((pA[b * e.impl.N + j]?).getD (fun _ _ => P.B.val 0)) := by
      intro j hj
      rw [List.getElem?_eq_getElem (by omega)]
      rfl
    have hbs : ∀ j < e.impl.N, l'[b * e.impl.N + j]? = some ((l[b * e.impl.N + j]?).getD (fun _ _ => P.B.val 0)) := by
      intro j hj
      rw [h2 _ (by omega), List.getElem?_eq_getElem (by omega)]
      rfl
    obtain ⟨y1, l1, k1, k2, k3, k4, k5, k6⟩ := AllPairs.body_ok H hA rfl hcs (fun j hj c' hc' => by
      rw [List.mem_singleton.1 hc']
      refine hnK _ (List.mem_of_getElem? (i := b * e.impl.N + j) ?_)
      rw [List.getElem?_take, if_pos (by omega)]
      exact hcs j hj) hm hnA hy hbs
    obtain ⟨y2, l2, m1, m2, m3, m4, m5, m6⟩ := ih (b + 1) g' y1 l1 (by omega) (by omega) k3 (k2.trans hyn) (k4.trans hl') (fun p ca cb hp hca hcb => by
      rw [Nat.succ_mul] at hp
      by_cases hpb : p < b * e.impl.N
      · rw [k6 p fun j _ => by omega]
        exact h1 p ca cb hpb hca hcb
      · obtain ⟨j, rfl⟩ : ∃ j, p = b * e.impl.N + j := ⟨p - b * e.impl.N, by omega⟩
        rw [k5 j (by omega), hca, hcb]
        rfl) (fun p hp => by
      rw [Nat.succ_mul] at hp
      rw [k6 p fun j _ => by omega]
      exact h2 p (by omega))
    refine ⟨y2, l2, ?_, m2, m3, m4, m5, m6⟩
    rw [Nat.succ_mul] at m1
    simp only [AllPairs.outer, if_pos hlt, k1, Option.bind_some]
    exact m1

/-! ### Time steps -/

/-- An array of `n` elements whose whole storage, including what lies behind the elements, holds the structs `p`. -/
structure Storage (L : Layout V) (W : ArrWorld V) (s N n : Nat) (p : List (Cell V)) : Prop where
  len : p.length = N
  fits : n ≤ N
  rep : ∃ a, W.a s = some a ∧ a.n = n ∧ LFA.Rep L ⟨a.N, p.length, a.data⟩ N p

theorem Storage.listIs {L : Layout V} (hL : L.WF) {W : ArrWorld V} {s N n : Nat} {p : List (Cell V)} (h : Storage L W s N n p) :
    ListIs L W s N (p.take n) := by
  obtain ⟨a, h1, h2, h3⟩ := h.rep
  have := h3.take (n := n) (by rw [h.len]; exact h.fits)
  refine ListIs.of_rep hL h1 ?_
  cases a
  simp only at h2
  subst h2
  exact this

theorem swap_storage {L : Layout V} (hT : ArrSpec.trivial L = true) {W : ArrWorld V} {s t N n : Nat} {p q : List (Cell V)} (hst : s ≠ t)
    (hp : Storage L W s N n p) (hq : Storage L W t N n q) :
    ∃ W', W.step L (.swap s t) = .ok (W', .unit) ∧ Storage L W' s N n q ∧ Storage L W' t N n p := by
  obtain ⟨a, a1, a2, a3⟩ := hp.rep
  obtain ⟨b, b1, b2, b3⟩ := hq.rep
  have e1 := a3.bytewise hT
  have e2 := b3.bytewise hT
  have ha : a.N = N := a3.cap
  have hb : b.N = N := b3.cap
  refine ⟨⟨ArrWorld.upd (ArrWorld.upd W.a s (some ⟨a.N, b.n, b.data.bytes⟩)) t (some ⟨b.N, a.n, a.data.bytes⟩), W.gone⟩, ?_,
    ⟨hq.len, hq.fits, ⟨a.N, b.n, b.data.bytes⟩, ?_, b2, ?_⟩, ⟨hp.len, hp.fits, ⟨b.N, a.n, a.data.bytes⟩, ?_, a2, ?_⟩⟩
  · simp only [ArrWorld.step, ArrWorld.withA, a1, b1]
  · simp only [ArrWorld.upd, if_neg hst, if_true]
  · simp only [ha, ← hb] at e2 ⊢; exact e2
  · simp only [ArrWorld.upd, if_true]
  · simp only [hb, ← ha] at e1 ⊢; exact e1

/-- What the loop makes of the lists if it ends at `M`. -/
def AllPairs.upto (P : AllPairs w V) (F : Calc w) (M : Nat) (l0 l1 : List (Cell V)) : List (Cell V) :=
  List.zipWith (P.elem F l0) (l0.take M) (l1.take M) ++ l1.drop M

theorem scalar_numbers {c o : Cell V} : ∀ (ss : List (Stmt w)) (x : (Nat → BitVec w) × Cell V), P.Numbers [x.2] →
    P.Numbers [(ss.foldl (Stmt.scalar P.B F c o) x).2] := by
  intro ss
  induction ss with
  | nil => exact fun x h => h
  | cons s ss ih =>
    intro x h
    refine ih _ ?_
    cases s with
    | store r k ex =>
      intro b hb s hs p hp
      rw [List.mem_singleton.1 hb]
      simp only [Stmt.scalar, Cell.set]
      split
      · rw [P.B.bits_val]; rfl
      · exact h _ List.mem_cons_self s hs p hp
    | _ => exact h

theorem elem_numbers (ls : List (Cell V)) (ce b : Cell V) (h : P.Numbers [b]) : P.Numbers [P.elem F ls ce b] := by
  refine scalar_numbers _ _ ?_
  have : ∀ (ls : List (Cell V)) (x : (Nat → BitVec w) × Cell V), P.Numbers [x.2] →
      P.Numbers [(ls.foldl (fun x o => P.inner.foldl (Stmt.scalar P.B F ce o) x) x).2] := by
    intro ls
    induction ls with
    | nil => exact fun x h => h
    | cons o ls ih => exact fun x h => ih _ (scalar_numbers _ _ h)
  exact this ls _ (scalar_numbers _ _ h)

theorem AllPairs.Numbers.get {ls : List (Cell V)} (h : P.Numbers ls) {i : Nat} {ce : Cell V} (hi : ls[i]? = some ce) : P.Numbers [ce] := by
  intro c' hc'
  rw [List.mem_singleton.1 hc']
  exact h ce (List.mem_of_getElem? hi)

theorem AllPairs.Numbers.of_get {ls : List (Cell V)} (h : ∀ (i : Nat) ce, ls[i]? = some ce → P.Numbers [ce]) : P.Numbers ls := by
  intro ce hce
  obtain ⟨i, hi⟩ := List.mem_iff_getElem?.1 hce
  exact h i ce hi ce List.mem_cons_self

theorem AllPairs.step_ok (H : P.Ok e F Q N d f c) {W : ArrWorld V} {p0 p1 : List (Cell V)} {m K : Nat} (h0 : Storage P.L W 0 N m p0)
    (h1 : Storage P.L W 1 N m p1) (hK : K * e.impl.N ≤ N) (hb : ∀ b, b * e.impl.N + P.slack < m ↔ b < K)
    {M : Nat} (hM : K * e.impl.N ≤ M) (hM' : m ≤ M) (hMN : M ≤ N) (n0 : P.Numbers (p0.take M)) (n1 : P.Numbers (p1.take M)) :
    ∃ W' p', P.step e m W = .ok (W', .unit) ∧ Storage P.L W' 0 N m p' ∧ Storage P.L W' 1 N m p0 ∧ P.Numbers (p'.take M) ∧
      p'.take m = P.upto F (K * e.impl.N) (p0.take m) (p1.take m) := by
  have hT : ArrSpec.trivial P.L = true := by
    rw [ArrSpec.trivial, List.all_eq_true]
    exact H.fits.triv
  obtain ⟨a, a1, a2, a3⟩ := h0.rep
  obtain ⟨b, b1, b2, b3⟩ := h1.rep
  have hl0 := h0.len
  have hl1 := h1.len
  have hf := h0.fits
  have hsub : ∀ {q : Nat} {p : List (Cell V)}, q ≤ M → P.Numbers (p.take M) → P.Numbers (p.take q) := by
    intro q p hq hn ce hce
    refine hn ce ?_
    obtain ⟨i, hi⟩ := List.mem_iff_getElem?.1 hce
    rw [List.getElem?_take] at hi
    split at hi
    · exact List.mem_of_getElem? (i := i) (by rw [List.getElem?_take, if_pos (by omega)]; exact hi)
    · cases hi
  have hKm : K ≤ m := by
    by_contra hc
    have := (hb m).2 (by omega)
    have := Nat.le_mul_of_pos_right m H.pos
    omega
  obtain ⟨y, p', k1, k2, k3, k4, k5, k6⟩ := AllPairs.outer_ok (l := p1) (n := m) H a3 (m := m) (K := K) (by omega) (by omega) (by omega)
    (hsub hM' n0) (hsub hM n0) hb K 0 m b p1 (by omega) hKm b3 b2 rfl
    (fun p ca cb hp => by omega) (fun p _ => rfl)
  rw [Nat.zero_mul] at k1
  have hS1 : Storage P.L (⟨ArrWorld.upd W.a 1 (some y), W.gone⟩ : ArrWorld V) 1 N m p' :=
    ⟨by omega, hf, y, by simp [ArrWorld.upd], k2, k3⟩
  have hS0 : Storage P.L (⟨ArrWorld.upd W.a 1 (some y), W.gone⟩ : ArrWorld V) 0 N m p0 :=
    ⟨hl0, hf, a, by simp [ArrWorld.upd, a1], a2, a3⟩
  obtain ⟨W', w1, w2, w3⟩ := swap_storage hT (by decide) hS0 hS1
  refine ⟨W', p', ?_, w2, w3, ?_, ?_⟩
  · simp only [AllPairs.step, ArrWorld.withA, a1, b1, k1, w1]
  · refine AllPairs.Numbers.of_get fun i ce hi => ?_
    rw [List.getElem?_take] at hi
    split at hi
    · rename_i hiM
      have e0 : p0[i]? = some (p0[i]'(by omega)) := List.getElem?_eq_getElem _
      have e1 : p1[i]? = some (p1[i]'(by omega)) := List.getElem?_eq_getElem _
      have hn1 : P.Numbers [p1[i]'(by omega)] := AllPairs.Numbers.get n1 (i := i) (by rw [List.getElem?_take, if_pos hiM]; exact e1)
      by_cases hiK : i < K * e.impl.N
      · rw [k5 i _ _ hiK e0 e1] at hi
        cases hi
        exact elem_numbers _ _ _ hn1
      · rw [k6 i (by omega), e1] at hi
        cases hi
        exact hn1
    · cases hi
  · refine List.ext_getElem? fun i => ?_
    unfold AllPairs.upto
    by_cases him : i < m
    · rw [List.getElem?_take, if_pos him]
      have e0 : p0[i]? = some (p0[i]'(by omega)) := List.getElem?_eq_getElem _
      have e1 : p1[i]? = some (p1[i]'(by omega)) := List.getElem?_eq_getElem _
      by_cases hiK : i < K * e.impl.N
      · rw [k5 i _ _ hiK e0 e1, List.getElem?_append_left (by simp; omega), List.getElem?_zipWith]
        simp [him, hiK, e0, e1]
      · rw [k6 i (by omega), List.getElem?_append_right (by simp; omega), List.getElem?_drop, List.getElem?_take, if_pos (by simp; omega)]
        congr 1
        simp
        omega
    · rw [List.getElem?_eq_none (by simp; omega), List.getElem?_eq_none]
      simp
      omega

theorem upto_scalar {l0 l1 : List (Cell V)} (h : l0.length = l1.length) {M : Nat} (hM : l0.length ≤ M) :
    P.upto F M l0 l1 = (P.scalar F (l0, l1)).1 := by
  unfold AllPairs.upto AllPairs.scalar
  rw [List.take_of_length_le hM, List.take_of_length_le (by omega), List.drop_eq_nil_of_le (by omega), List.append_nil]

theorem AllPairs.run_ok (H : P.Ok e F Q N d f c) (hs : P.slack = 0) {m : Nat} (hru : roundUp e.impl.N m ≤ N) :
    ∀ (t : Nat) (W : ArrWorld V) (p0 p1 : List (Cell V)), Storage P.L W 0 N m p0 → Storage P.L W 1 N m p1 →
      P.Numbers (p0.take (roundUp e.impl.N m)) → P.Numbers (p1.take (roundUp e.impl.N m)) →
      ∃ W', P.run e m t W = .ok (W', .unit) ∧ ListIs P.L W' 0 N (P.scalars F t (p0.take m, p1.take m)).1 ∧
        ListIs P.L W' 1 N (P.scalars F t (p0.take m, p1.take m)).2 := by
  have hpos := H.pos
  have hr : m ≤ roundUp e.impl.N m ∧ roundUp e.impl.N m < m + e.impl.N := by
    unfold roundUp
    have := Nat.div_add_mod (m + e.impl.N - 1) e.impl.N
    have := Nat.mod_lt (m + e.impl.N - 1) hpos
    have : e.impl.N * ((m + e.impl.N - 1) / e.impl.N) = (m + e.impl.N - 1) / e.impl.N * e.impl.N := Nat.mul_comm _ _
    omega
  have hb : ∀ b, b * e.impl.N + P.slack < m ↔ b < (m + e.impl.N - 1) / e.impl.N := by
    intro b
    rw [hs, Nat.lt_div_iff_mul_lt hpos]
    constructor
    · intro h; omega
    · intro h; omega
  intro t
  induction t with
  | zero =>
    intro W p0 p1 h0 h1 _ _
    exact ⟨W, rfl, h0.listIs H.fits.wf, h1.listIs H.fits.wf⟩
  | succ t ih =>
    intro W p0 p1 h0 h1 n0 n1
    have hl0 := h0.len
    have hl1 := h1.len
    obtain ⟨W1, p', k1, k2, k3, k4, k5⟩ := AllPairs.step_ok H h0 h1 hru hb (M := roundUp e.impl.N m) (le_refl _) hr.1 hru n0 n1
    obtain ⟨W2, k6, k7, k8⟩ := ih W1 p' p0 k2 k3 k4 n0
    have e1 : (p'.take m, p0.take m) = P.scalar F (p0.take m, p1.take m) := by
      rw [k5, upto_scalar (by simp; omega) (by simp only [List.length_take]; unfold roundUp at hr; omega)]
      rfl
    rw [e1] at k7 k8
    refine ⟨W2, ?_, k7, k8⟩
    simp only [AllPairs.run, k1, andThen, k6]

/-- All members which are read by the kernel are numbers in the first `M` structs of an array, whether these are elements or not. -/
def AllPairs.Filled (P : AllPairs w V) (W : ArrWorld V) (s M : Nat) : Prop :=
  ∀ i < M, ∀ st ∈ P.stmts, ∀ p ∈ st.reads, ∃ v, W.step P.L (.peek s (i : Nat) p.1 p.2) = .ok (W, .val v) ∧ (P.B.bits v).isSome = true

theorem storage_of (H : P.Ok e F Q N d f c) (dv : V) {W : ArrWorld V} (hV : ArrValid P.L W) {s m : Nat} {ls : List (Cell V)}
    (h : ListIs P.L W s N ls) (hm : ls.length = m) {M : Nat} (hn : P.Filled W s M) :
    ∃ p, Storage P.L W s N m p ∧ p.take m = ls ∧ P.Numbers (p.take M) := by
  obtain ⟨a, ha, hr⟩ := listIs_rep H.fits.wf dv hV h
  obtain ⟨hc, hl, hf, hint, hsz, cs, hv, hcs⟩ := hr
  have hrep : LFA.Rep P.L ⟨a.N, ((List.range N).map cs).length, a.data⟩ N ((List.range N).map cs) :=
    ⟨hc, rfl, by simp, hint, hsz, cs, hv, fun i hi => by
      rw [List.length_map, List.length_range] at hi
      simp [hi]⟩
  refine ⟨(List.range N).map cs, ⟨by simp, by omega, a, ha, by omega, hrep⟩, ?_, ?_⟩
  · refine List.ext_getElem? fun i => ?_
    rw [List.getElem?_take]
    by_cases hi : i < m
    · rw [if_pos hi, hcs i (by omega), List.getElem?_map, List.getElem?_range (by omega)]
      rfl
    · rw [if_neg hi, List.getElem?_eq_none (by omega)]
  · refine AllPairs.Numbers.of_get fun i ce hi => ?_
    rw [List.getElem?_take] at hi
    split at hi
    · rename_i hiM
      intro c' hc' st hst p hp
      rw [List.mem_singleton.1 hc']
      obtain ⟨mb, h1, h2, -⟩ := H.fits.mem st hst p (by
        cases st <;> simp_all [Stmt.reads, Stmt.pos])
      obtain ⟨v, hv1, hv2⟩ := hn i hiM st hst p hp
      have hpk := hrep.peekAt H.fits.wf hi h1 h2
      simp only at hpk
      simp only [ArrWorld.step, ArrWorld.withA, ha, h1, ArrWorld.ro] at hv1
      rw [hpk] at hv1
      simp only [Except.ok.injEq, Prod.mk.injEq, true_and, ArrOut.val.injEq] at hv1
      rw [hv1]
      exact hv2
    · cases hi

theorem allPairs_ok (H : P.Ok e F Q N d f c) (hs : P.slack = 0) (dv : V) {W : ArrWorld V} (hV : ArrValid P.L W) {m : Nat}
    {l0 l1 : List (Cell V)} (h0 : ListIs P.L W 0 N l0) (h1 : ListIs P.L W 1 N l1) (hm0 : l0.length = m) (hm1 : l1.length = m)
    (hru : roundUp e.impl.N m ≤ N) (hn : ∀ s < 2, P.Filled W s (roundUp e.impl.N m)) (t : Nat) :
    ∃ W', P.run e m t W = .ok (W', .unit) ∧ ListIs P.L W' 0 N (P.scalars F t (l0, l1)).1 ∧ ListIs P.L W' 1 N (P.scalars F t (l0, l1)).2 := by
  obtain ⟨p0, s0, e0, n0⟩ := storage_of H dv hV h0 hm0 (hn 0 (by omega))
  obtain ⟨p1, s1, e1, n1⟩ := storage_of H dv hV h1 hm1 (hn 1 (by omega))
  rw [← e0, ← e1]
  exact AllPairs.run_ok H hs hru t W p0 p1 s0 s1 n0 n1

/-- The loop of NBodyBronze ends at the last whole vector. -/
theorem allPairs_bronze (H : P.Ok e F Q N d f c) (hs : P.slack = e.impl.N - 1) (dv : V) {W : ArrWorld V} (hV : ArrValid P.L W) {m : Nat}
    {l0 l1 : List (Cell V)} (h0 : ListIs P.L W 0 N l0) (h1 : ListIs P.L W 1 N l1) (hm0 : l0.length = m) (hm1 : l1.length = m)
    (hn : ∀ s < 2, P.Filled W s m) :
    ∃ W', P.run e m 1 W = .ok (W', .unit) ∧ ListIs P.L W' 0 N (P.upto F (m / e.impl.N * e.impl.N) l0 l1) := by
  have hmN : m ≤ N := by
    obtain ⟨a, -, hr⟩ := listIs_rep H.fits.wf dv hV h0
    have := hr.fits
    omega
  obtain ⟨p0, s0, e0, n0⟩ := storage_of H dv hV h0 hm0 (hn 0 (by omega))
  obtain ⟨p1, s1, e1, n1⟩ := storage_of H dv hV h1 hm1 (hn 1 (by omega))
  have hpos := H.pos
  have hle := Nat.div_mul_le_self m e.impl.N
  have hb : ∀ b, b * e.impl.N + P.slack < m ↔ b < m / e.impl.N := by
    intro b
    rw [hs, ← Nat.succ_le_iff (m := b), Nat.le_div_iff_mul_le hpos, Nat.succ_mul]
    omega
  obtain ⟨W1, p', k1, k2, k3, k4, k5⟩ := AllPairs.step_ok H s0 s1 (by omega) hb (M := m) hle (le_refl _) hmN n0 n1
  refine ⟨W1, by simp only [AllPairs.run, k1, andThen], ?_⟩
  rw [← e0, ← e1, ← k5]
  exact k2.listIs H.fits.wf

end

theorem float_ok {c : SV.Cfg} {e : Entry 32} (he : e ∈ SV.floatVecs c) {P : AllPairs 32 V} {N : Nat}
    (hF : P.Fits N e.impl.N (SV.floatReqs c e.impl.N).any) (hk : ∀ s ∈ P.stmts, s.only true true (SV.hasFloatCmp c e.impl.N) = true) :
    P.Ok e (SV.floatArith c e.impl.N P.E.f32) (SV.floatReqs c e.impl.N) N true true e.cmp.isSome where
  fits := hF
  faithful := SV.float_target c e he P.E
  quot := (SV.C44_float_divSqrt c e he P.E).1
  transfers := SV.C46_float_partial c e he P.E
  only := by rw [SV.C45_float_available c e he]; exact hk
  w := by decide
  pos := by have := SV.float_arity c e he; simp at this; omega

theorem double_ok {c : SV.Cfg} {e : Entry 64} (he : e ∈ SV.doubleVecs c) {P : AllPairs 64 V} {N : Nat}
    (hF : P.Fits N e.impl.N (SV.doubleReqs c e.impl.N).any) (hk : ∀ s ∈ P.stmts, s.only true true (SV.hasDoubleCmp c e.impl.N) = true) :
    P.Ok e (SV.doubleArith c e.impl.N P.E.f64) (SV.doubleReqs c e.impl.N) N true true e.cmp.isSome where
  fits := hF
  faithful := SV.double_target c e he P.E
  quot := (SV.C44_double_divSqrt c e he P.E).1
  transfers := SV.C46_double_partial c e he P.E
  only := by rw [SV.C45_double_available c e he]; exact hk
  w := by decide
  pos := by have := SV.double_arity c e he; simp at this; omega

/-! ### The kernels -/

/-- C75: kernels of `float`s which combine each element with all elements. After any number of time steps the arrays hold what scalar loops over
    lists compute with the arithmetic of the target. -/
theorem C75_float (c : SV.Cfg) (e : Entry 32) (he : e ∈ SV.floatVecs c) (E : FEnv) (L : Layout V) (B : Bits 32 V) (base : Nat → Nat)
    (pre inner post : List (Stmt 32)) (N : Nat) (hF : (⟨L, B, base, E, 0, pre, inner, post⟩ : AllPairs 32 V).Fits N e.impl.N (SV.floatReqs c e.impl.N).any)
    (hk : ∀ s ∈ pre ++ (inner ++ post), s.only true true (SV.hasFloatCmp c e.impl.N) = true) (dv : V) (W : ArrWorld V) (hV : ArrValid L W)
    (n : Nat) (l0 l1 : List (Cell V)) (h0 : ListIs L W 0 N l0) (h1 : ListIs L W 1 N l1) (hn0 : l0.length = n) (hn1 : l1.length = n)
    (hru : roundUp e.impl.N n ≤ N) (hf : ∀ s < 2, (⟨L, B, base, E, 0, pre, inner, post⟩ : AllPairs 32 V).Filled W s (roundUp e.impl.N n)) (t : Nat) :
    ∃ W', (⟨L, B, base, E, 0, pre, inner, post⟩ : AllPairs 32 V).run e n t W = .ok (W', .unit) ∧
      ListIs L W' 0 N ((⟨L, B, base, E, 0, pre, inner, post⟩ : AllPairs 32 V).scalars (SV.floatArith c e.impl.N E.f32) t (l0, l1)).1 ∧
      ListIs L W' 1 N ((⟨L, B, base, E, 0, pre, inner, post⟩ : AllPairs 32 V).scalars (SV.floatArith c e.impl.N E.f32) t (l0, l1)).2 :=
  allPairs_ok (P := ⟨L, B, base, E, 0, pre, inner, post⟩) (float_ok he hF hk) rfl dv hV h0 h1 hn0 hn1 hru hf t

/-- C75 for `double`. -/
theorem C75_double (c : SV.Cfg) (e : Entry 64) (he : e ∈ SV.doubleVecs c) (E : FEnv) (L : Layout V) (B : Bits 64 V) (base : Nat → Nat)
    (pre inner post : List (Stmt 64)) (N : Nat) (hF : (⟨L, B, base, E, 0, pre, inner, post⟩ : AllPairs 64 V).Fits N e.impl.N (SV.doubleReqs c e.impl.N).any)
    (hk : ∀ s ∈ pre ++ (inner ++ post), s.only true true (SV.hasDoubleCmp c e.impl.N) = true) (dv : V) (W : ArrWorld V) (hV : ArrValid L W)
    (n : Nat) (l0 l1 : List (Cell V)) (h0 : ListIs L W 0 N l0) (h1 : ListIs L W 1 N l1) (hn0 : l0.length = n) (hn1 : l1.length = n)
    (hru : roundUp e.impl.N n ≤ N) (hf : ∀ s < 2, (⟨L, B, base, E, 0, pre, inner, post⟩ : AllPairs 64 V).Filled W s (roundUp e.impl.N n)) (t : Nat) :
    ∃ W', (⟨L, B, base, E, 0, pre, inner, post⟩ : AllPairs 64 V).run e n t W = .ok (W', .unit) ∧
      ListIs L W' 0 N ((⟨L, B, base, E, 0, pre, inner, post⟩ : AllPairs 64 V).scalars (SV.doubleArith c e.impl.N E.f64) t (l0, l1)).1 ∧
      ListIs L W' 1 N ((⟨L, B, base, E, 0, pre, inner, post⟩ : AllPairs 64 V).scalars (SV.doubleArith c e.impl.N E.f64) t (l0, l1)).2 :=
  allPairs_ok (P := ⟨L, B, base, E, 0, pre, inner, post⟩) (double_ok he hF hk) rfl dv hV h0 h1 hn0 hn1 hru hf t

/-- C75 for `double` with scalar divisions and square roots, except for vectors of more than 2 on QPX. -/
theorem C75_double_exact (c : SV.Cfg) (e : Entry 64) (he : e ∈ SV.doubleVecs c) (hq : ¬ (c = .qpx ∧ 2 < e.impl.N)) (E : FEnv) (L : Layout V)
    (B : Bits 64 V) (base : Nat → Nat) (pre inner post : List (Stmt 64)) (N : Nat)
    (hF : (⟨L, B, base, E, 0, pre, inner, post⟩ : AllPairs 64 V).Fits N e.impl.N (SV.doubleReqs c e.impl.N).any)
    (hk : ∀ s ∈ pre ++ (inner ++ post), s.only true true (SV.hasDoubleCmp c e.impl.N) = true) (dv : V) (W : ArrWorld V) (hV : ArrValid L W)
    (n : Nat) (l0 l1 : List (Cell V)) (h0 : ListIs L W 0 N l0) (h1 : ListIs L W 1 N l1) (hn0 : l0.length = n) (hn1 : l1.length = n)
    (hru : roundUp e.impl.N n ≤ N) (hf : ∀ s < 2, (⟨L, B, base, E, 0, pre, inner, post⟩ : AllPairs 64 V).Filled W s (roundUp e.impl.N n)) (t : Nat) :
    ∃ W', (⟨L, B, base, E, 0, pre, inner, post⟩ : AllPairs 64 V).run e n t W = .ok (W', .unit) ∧
      ListIs L W' 0 N ((⟨L, B, base, E, 0, pre, inner, post⟩ : AllPairs 64 V).scalars ⟨E.f64, fun x y => E.f64.div x (E.f64.sqrt y)⟩ t (l0, l1)).1 ∧
      ListIs L W' 1 N ((⟨L, B, base, E, 0, pre, inner, post⟩ : AllPairs 64 V).scalars ⟨E.f64, fun x y => E.f64.div x (E.f64.sqrt y)⟩ t (l0, l1)).2 := by
  have h := C75_double c e he E L B base pre inner post N hF hk dv W hV n l0 l1 h0 h1 hn0 hn1 hru hf t
  have hx : SV.doubleArith c e.impl.N E.f64 = ⟨E.f64, fun x y => E.f64.div x (E.f64.sqrt y)⟩ := by
    obtain ⟨h1, h2⟩ := SV.doubleArith_exact hq E.f64
    exact congrArg₂ Calc.mk h1 h2
  rwa [hx] at h

/-- C75 is false for the loop of NBodyBronze, which ends `arity - 1` elements before the end: elements behind the last whole vector are not
    updated, after a time step they are those which the second array has held before. -/
theorem C75_false_bronze (c : SV.Cfg) (e : Entry 32) (he : e ∈ SV.floatVecs c) (E : FEnv) (L : Layout V) (B : Bits 32 V) (base : Nat → Nat)
    (pre inner post : List (Stmt 32)) (N : Nat)
    (hF : (⟨L, B, base, E, e.impl.N - 1, pre, inner, post⟩ : AllPairs 32 V).Fits N e.impl.N (SV.floatReqs c e.impl.N).any)
    (hk : ∀ s ∈ pre ++ (inner ++ post), s.only true true (SV.hasFloatCmp c e.impl.N) = true) (dv : V) (W : ArrWorld V) (hV : ArrValid L W)
    (n : Nat) (l0 l1 : List (Cell V)) (h0 : ListIs L W 0 N l0) (h1 : ListIs L W 1 N l1) (hn0 : l0.length = n) (hn1 : l1.length = n)
    (hf : ∀ s < 2, (⟨L, B, base, E, e.impl.N - 1, pre, inner, post⟩ : AllPairs 32 V).Filled W s n) :
    ∃ W' l, (⟨L, B, base, E, e.impl.N - 1, pre, inner, post⟩ : AllPairs 32 V).run e n 1 W = .ok (W', .unit) ∧ ListIs L W' 0 N l ∧
      ∀ i, l[i]? = if i < n / e.impl.N * e.impl.N then
        ((⟨L, B, base, E, 0, pre, inner, post⟩ : AllPairs 32 V).scalar (SV.floatArith c e.impl.N E.f32) (l0, l1)).1[i]? else l1[i]? := by
  obtain ⟨W', k1, k2⟩ := allPairs_bronze (P := ⟨L, B, base, E, e.impl.N - 1, pre, inner, post⟩) (float_ok he hF hk) rfl dv hV h0 h1 hn0 hn1 hf
  refine ⟨W', _, k1, k2, fun i => ?_⟩
  have hle := Nat.div_mul_le_self n e.impl.N
  generalize n / e.impl.N * e.impl.N = M at hle ⊢
  have hl : (List.zipWith (AllPairs.elem ⟨L, B, base, E, e.impl.N - 1, pre, inner, post⟩ (SV.floatArith c e.impl.N E.f32) l0) (l0.take M)
      (l1.take M)).length = M := by
    simp only [List.length_zipWith, List.length_take]
    omega
  unfold AllPairs.upto AllPairs.scalar
  simp only
  by_cases hi : i < M
  · rw [if_pos hi, List.getElem?_append_left (by omega)]
    simp only [List.getElem?_zipWith, List.getElem?_take, hi, if_true]
    rfl
  · rw [if_neg hi, List.getElem?_append_right (by omega), hl, List.getElem?_drop]
    congr 1
    omega

namespace Demo

/-- The N-body kernel (main.cpp:1674-1712, 1793-1831) for positions, velocities and charges at the given places. Variables: 0-2 position, 3-5
    velocity, 6 charge, 7-9 acceleration, 10-12 delta, 13 the square of the distance, 14 the other charge, 15 factor. -/
def nbPre (x v : Nat → Nat × Nat) (q : Nat × Nat) : List (Stmt 32) :=
  [.load 0 (x 0).1 (x 0).2, .load 1 (x 1).1 (x 1).2, .load 2 (x 2).1 (x 2).2, .load 3 (v 0).1 (v 0).2, .load 4 (v 1).1 (v 1).2,
    .load 5 (v 2).1 (v 2).2, .load 6 q.1 q.2, .assign 7 (.const 0), .assign 8 (.const 0), .assign 9 (.const 0)]

def nbInner (x : Nat → Nat × Nat) (q : Nat × Nat) (dt soft : BitVec 32) : List (Stmt 32) :=
  [.other 10 (x 0).1 (x 0).2, .assign 10 (.sub (.var 0) (.var 10)), .other 11 (x 1).1 (x 1).2, .assign 11 (.sub (.var 1) (.var 11)),
    .other 12 (x 2).1 (x 2).2, .assign 12 (.sub (.var 2) (.var 12)),
    .assign 13 (.add (.add (.add (.mul (.var 10) (.var 10)) (.mul (.var 11) (.var 11))) (.mul (.var 12) (.var 12))) (.const soft)),
    .other 14 q.1 q.2, .quot 15 (.div (.mul (.mul (.var 6) (.var 14)) (.const dt)) (.var 13)) (.var 13),
    .assign 7 (.add (.var 7) (.mul (.var 10) (.var 15))), .assign 8 (.add (.var 8) (.mul (.var 11) (.var 15))),
    .assign 9 (.add (.var 9) (.mul (.var 12) (.var 15)))]

def nbPost (x v : Nat → Nat × Nat) (q : Nat × Nat) (dt : BitVec 32) : List (Stmt 32) :=
  [.store (x 0).1 (x 0).2 (.add (.var 0) (.mul (.var 3) (.const dt))), .store (x 1).1 (x 1).2 (.add (.var 1) (.mul (.var 4) (.const dt))),
    .store (x 2).1 (x 2).2 (.add (.var 2) (.mul (.var 5) (.const dt))), .store (v 0).1 (v 0).2 (.add (.var 3) (.var 7)),
    .store (v 1).1 (v 1).2 (.add (.var 4) (.var 8)), .store (v 2).1 (v 2).2 (.add (.var 5) (.var 9)), .store q.1 q.2 (.var 6)]

/-- NBodySilver: seven members. -/
def silver (slack : Nat) : AllPairs 32 (BitVec 32) :=
  ⟨particle, B, fun s => 4096 * (1 + 1000 * s), FEnv.demo, slack, nbPre (fun i => (i, 0)) (fun i => (3 + i, 0)) (6, 0),
    nbInner (fun i => (i, 0)) (6, 0) 2 5, nbPost (fun i => (i, 0)) (fun i => (3 + i, 0)) (6, 0) 2⟩

/-- `ArrayParticle` (main.cpp:1729-1733): two arrays of three numbers, one number. -/
def arrayParticle : Layout (BitVec 32) := [⟨⟨4, true⟩, some 3, 0⟩, ⟨⟨4, true⟩, some 3, 0⟩, ⟨⟨4, true⟩, none, 0⟩]

/-- NBodyGold: members which are arrays. -/
def gold : AllPairs 32 (BitVec 32) :=
  ⟨arrayParticle, B, fun s => 4096 * (1 + 1000 * s), FEnv.demo, 0, nbPre (fun i => (0, i)) (fun i => (1, i)) (2, 0),
    nbInner (fun i => (0, i)) (2, 0) 2 5, nbPost (fun i => (0, i)) (fun i => (1, i)) (2, 0) 2⟩

theorem arrayParticle_wf : arrayParticle.WF := by
  intro m hm
  simp only [arrayParticle, List.mem_cons, List.not_mem_nil, or_false] at hm
  rcases hm with rfl | rfl | rfl <;> simp [Member.elems]

theorem silver_fits (slack : Nat) : (silver slack).Fits 128 8 1 where
  wf := particle_wf
  triv := by simp only [silver]; decide
  mem := by
    have : ∀ s ∈ (silver slack).stmts, ∀ p ∈ s.pos, p.1 < 7 ∧ p.2 = 0 := by
      simp only [AllPairs.stmts, silver, nbPre, nbInner, nbPost]
      decide
    intro s hs p hp
    obtain ⟨h1, h2⟩ := this s hs p hp
    refine ⟨⟨⟨4, true⟩, none, 0⟩, ?_, by rw [h2]; decide, rfl, ?_, fun _ _ _ _ => Nat.one_dvd _⟩
    · simp only [silver, particle]
      rw [List.getElem?_replicate, if_pos h1]
    · exact Dvd.dvd.mul_right (by decide) _
  base := fun t => Dvd.dvd.mul_right (by decide) _
  own := by simp only [silver, nbPre, nbPost]; decide

theorem gold_fits : gold.Fits 128 8 1 where
  wf := arrayParticle_wf
  triv := by simp only [gold]; decide
  mem := by
    have : ∀ s ∈ gold.stmts, ∀ p ∈ s.pos, ∃ m, arrayParticle[p.1]? = some m ∧ p.2 < m.elems ∧ m.ty.size = 4 := by
      have : ∀ s ∈ gold.stmts, ∀ p ∈ s.pos, p.1 < 2 ∧ p.2 < 3 ∨ p = (2, 0) := by
        simp only [AllPairs.stmts, gold, nbPre, nbInner, nbPost]
        decide
      intro s hs p hp
      rcases this s hs p hp with ⟨h1, h2⟩ | h
      · obtain ⟨r, k⟩ := p
        have : r = 0 ∨ r = 1 := by simp only at h1; omega
        rcases this with rfl | rfl <;> exact ⟨_, rfl, h2, rfl⟩
      · subst h
        exact ⟨_, rfl, by decide, rfl⟩
    intro s hs p hp
    obtain ⟨m, h1, h2, h3⟩ := this s hs p hp
    exact ⟨m, h1, h2, h3, Dvd.dvd.mul_right (by decide) _, fun _ _ _ _ => Nat.one_dvd _⟩
  base := fun t => Dvd.dvd.mul_right (by decide) _
  own := by simp only [gold, nbPre, nbPost]; decide

/-- Two arrays of `n` elements. -/
theorem two {L : Layout (BitVec 32)} (hL : L.WF) (n : Nat) (hn : n ≤ 128) (c0 c1 : Cell (BitVec 32)) :
    ∃ W, ArrValid L W ∧ ListIs L W 0 128 (List.replicate n c0) ∧ ListIs L W 1 128 (List.replicate n c1) := by
  have hs : ArrSpec.run L ArrSpec.start [.new 0 128 n c0, .new 1 128 n c1] =
      some (ArrWorld.upd (ArrWorld.upd ArrSpec.start 0 (some (128, List.replicate n c0))) 1 (some (128, List.replicate n c1)), [.unit, .unit]) := by
    simp [ArrSpec.run, ArrSpec.step, ArrSpec.start, ArrWorld.upd, hn]
  obtain ⟨W, h1, hR⟩ := arr_run_refines hL 0 _ (ArrR.init L) hs
  obtain ⟨a0, p0, r0⟩ := hR.arr (s := 0) rfl
  obtain ⟨a1, p1, r1⟩ := hR.arr (s := 1) rfl
  exact ⟨W, ⟨_, _, _, hs, h1⟩, ListIs.of_rep hL p0 r0, ListIs.of_rep hL p1 r1⟩

/-- All structs of these arrays hold numbers. -/
theorem filled_all {P : AllPairs 32 (BitVec 32)} (hB : ∀ v, (P.B.bits v).isSome = true) (hL : P.L.WF)
    (hp : ∀ s ∈ P.stmts, ∀ p ∈ s.reads, ∃ m, P.L[p.1]? = some m ∧ p.2 < m.elems) {W : ArrWorld (BitVec 32)} (hV : ArrValid P.L W) {s N M : Nat}
    {l : List (Cell (BitVec 32))} (h : ListIs P.L W s N l) (hM : M ≤ N) : P.Filled W s M := by
  intro i hi st hst p hpp
  obtain ⟨a, ha, hr⟩ := listIs_rep hL 0 hV h
  obtain ⟨q, hq, hr⟩ := rep_pad hr (m := N) (le_refl _)
  have hlt : i < q.length := by omega
  obtain ⟨m, hm1, hm2⟩ := hp st hst p hpp
  have := hr.peekAt hL (List.getElem?_eq_getElem hlt) hm1 hm2
  refine ⟨q[i] p.1 p.2, ?_, hB _⟩
  simp only [ArrWorld.step, ArrWorld.withA, ha, ArrWorld.ro]
  simp only at this
  simp only [hm1]
  rw [this]

theorem reads_pos {s : Stmt w} {p : Nat × Nat} (h : p ∈ s.reads) : p ∈ s.pos := by
  cases s <;> simp_all [Stmt.reads, Stmt.pos]

theorem any8 {e : Entry 32} (hn : e.impl.N = 8) : (SV.floatReqs .avx e.impl.N).any = 1 := by rw [hn]; rfl

/-- NBodySilver with 13 particles on AVX, three time steps. -/
example : ∃ W e W' l, (silver 0).run e 13 3 W = .ok (W', .unit) ∧ ListIs particle W' 0 128 l ∧ l.length = 13 := by
  obtain ⟨W, hV, h0, h1⟩ := two particle_wf 13 (by decide) (fun r _ => r) (fun _ _ => 7)
  obtain ⟨e, he, hn⟩ := avx8
  have hp : ∀ s ∈ (silver 0).stmts, ∀ p ∈ s.reads, ∃ m, particle[p.1]? = some m ∧ p.2 < m.elems := fun s hs p hp => by
    obtain ⟨m, k1, k2, -⟩ := (silver_fits 0).mem s hs p (reads_pos hp)
    exact ⟨m, k1, k2⟩
  obtain ⟨W', k1, k2, -⟩ := C75_float .avx e he FEnv.demo particle B _ _ _ _ 128 (by rw [any8 hn, hn]; exact silver_fits 0)
    (by intro s hs; have : ∀ s ∈ (silver 0).stmts, s.only true true (SV.hasFloatCmp .avx 8) = true := by (simp only [AllPairs.stmts, silver, nbPre, nbInner, nbPost]; decide)
        rw [hn]; exact this s hs) 0 W hV 13 _ _ h0 h1 (by simp) (by simp) (by rw [hn]; decide) (fun s hs => by
      have hr : roundUp e.impl.N 13 ≤ 128 := by rw [hn]; decide
      have : s = 0 ∨ s = 1 := by omega
      rcases this with rfl | rfl
      · exact filled_all (P := silver 0) (fun _ => rfl) particle_wf hp hV h0 hr
      · exact filled_all (P := silver 0) (fun _ => rfl) particle_wf hp hV h1 hr) 3
  refine ⟨W, e, W', _, k1, k2, ?_⟩
  simp [AllPairs.scalars, AllPairs.scalar]

/-- NBodyGold with 13 particles on AVX, one time step. -/
example : ∃ W e W' l, gold.run e 13 1 W = .ok (W', .unit) ∧ ListIs arrayParticle W' 0 128 l ∧ l.length = 13 := by
  obtain ⟨W, hV, h0, h1⟩ := two arrayParticle_wf 13 (by decide) (fun r k => r + k) (fun _ _ => 7)
  obtain ⟨e, he, hn⟩ := avx8
  have hp : ∀ s ∈ gold.stmts, ∀ p ∈ s.reads, ∃ m, arrayParticle[p.1]? = some m ∧ p.2 < m.elems := fun s hs p hp => by
    obtain ⟨m, k1, k2, -⟩ := gold_fits.mem s hs p (reads_pos hp)
    exact ⟨m, k1, k2⟩
  obtain ⟨W', k1, k2, -⟩ := C75_float .avx e he FEnv.demo arrayParticle B _ _ _ _ 128 (by rw [any8 hn, hn]; exact gold_fits)
    (by intro s hs; have : ∀ s ∈ gold.stmts, s.only true true (SV.hasFloatCmp .avx 8) = true := by (simp only [AllPairs.stmts, gold, nbPre, nbInner, nbPost]; decide)
        rw [hn]; exact this s hs) 0 W hV 13 _ _ h0 h1 (by simp) (by simp) (by rw [hn]; decide) (fun s hs => by
      have hr : roundUp e.impl.N 13 ≤ 128 := by rw [hn]; decide
      have : s = 0 ∨ s = 1 := by omega
      rcases this with rfl | rfl
      · exact filled_all (P := gold) (fun _ => rfl) arrayParticle_wf hp hV h0 hr
      · exact filled_all (P := gold) (fun _ => rfl) arrayParticle_wf hp hV h1 hr) 1
  refine ⟨W, e, W', _, k1, k2, ?_⟩
  simp [AllPairs.scalars, AllPairs.scalar]

/-- NBodyBronze with 9 particles: the ninth is the one which has been in the second array. -/
example : ∃ W e W' l, (silver 7).run e 9 1 W = .ok (W', .unit) ∧ ListIs particle W' 0 128 l ∧ l[8]? = some fun _ _ => 7 := by
  obtain ⟨W, hV, h0, h1⟩ := two particle_wf 9 (by decide) (fun r _ => r) (fun _ _ => 7)
  obtain ⟨e, he, hn⟩ := avx8
  have hp : ∀ s ∈ (silver 7).stmts, ∀ p ∈ s.reads, ∃ m, particle[p.1]? = some m ∧ p.2 < m.elems := fun s hs p hp => by
    obtain ⟨m, k1, k2, -⟩ := (silver_fits 7).mem s hs p (reads_pos hp)
    exact ⟨m, k1, k2⟩
  have e7 : e.impl.N - 1 = 7 := by rw [hn]
  obtain ⟨W', l, k1, k2, k3⟩ := C75_false_bronze .avx e he FEnv.demo particle B _ _ _ _ 128 (by rw [e7, any8 hn, hn]; exact silver_fits 7)
    (by intro s hs; have : ∀ s ∈ (silver 7).stmts, s.only true true (SV.hasFloatCmp .avx 8) = true := by (simp only [AllPairs.stmts, silver, nbPre, nbInner, nbPost]; decide)
        rw [hn]; exact this s hs) 0 W hV 9 _ _ h0 h1 (by simp) (by simp) (fun s hs => by
      rw [e7]
      have : s = 0 ∨ s = 1 := by omega
      rcases this with rfl | rfl
      · exact filled_all (P := silver 7) (fun _ => rfl) particle_wf hp hV h0 (by decide)
      · exact filled_all (P := silver 7) (fun _ => rfl) particle_wf hp hV h1 (by decide))
  rw [e7] at k1
  refine ⟨W, e, W', l, k1, k2, ?_⟩
  rw [k3 8, hn]
  rfl

end Demo

end LFA.GK
