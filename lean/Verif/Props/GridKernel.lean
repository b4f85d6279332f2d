/-
  C62: vectorised kernels on grids compute what scalar code on plain arrays computes.
-/
import Verif.GridKernel
import Verif.GridValid
import Verif.Props.Threads
import Verif.Props.Machine
set_option linter.unusedSectionVars false
namespace LFA.GK
open SV (Expr Entry FEnv Mem Writes Faithful Transfers Reqs lane FOps applyW wr Accessible)
open Thr (Loc Ref InGrid ValueIs InA valA inA_iff peek_step poke_step)

variable {V : Type} [DecidableEq V] {C : Cfg V} {dv : V} {w : Nat}

/-! ### One reference -/

/-- Grid variable `s` holds a grid with these extents and this buffer. -/
def Has (C : Cfg V) (W : World V) (s : Nat) (e : Ext) (id : Nat) : Prop :=
  ∃ g, W.g s = some g ∧ selectSizes C.tr g.dim = .ok e ∧ g.data = some id

/-- The offset in the buffer. -/
def off (L : Layout V) (e : Ext) (x y z : Int) (p : Pos) (m : Member V) : Int :=
  ((accAt e (genIndex e x y z)).shift p.X p.Y p.Z).userRef L p.r m p.k

/-- The location. -/
def at' (s : Nat) (p : Pos) (x y z : Int) : Loc := ⟨s, x + p.X, y + p.Y, z + p.Z, p.r, p.k⟩

theorem off_add (L : Layout V) (e : Ext) (x y z : Int) (p : Pos) (m : Member V) (i : Int) :
    off L e (x + i) y z p m = off L e x y z p m + i * m.ty.size := by
  unfold off Acc.userRef
  cases m.arity <;> simp only [Acc.member, Acc.arrayRef, Acc.shift, accAt, genIndex] <;> ring

theorem read_ok (hL : C.L.WF) {W : World V} {a : AWorld V} (hR : R C W a) {s : Nat} {e : Ext} {id : Nat} (hs : Has C W s e id)
    {p : Pos} {x y z : Int} (hin : InA C a (at' s p x y z)) {m : Member V} (hm : C.L[p.r]? = some m) :
    ∃ b, W.h.blk id = some b ∧ b.read (off C.L e x y z p m) m.ty = .ok (valA dv a (at' s p x y z)) := by
  obtain ⟨g, h1, h2, h3⟩ := hs
  have := peek_step (dv := dv) hL hR (p := ⟨s, x, y, z, p.X, p.Y, p.Z, p.r, p.k⟩) hin
  simp only [World.step, World.withG, h1, Grid.callbackRead, h2, h3] at this
  cases hb : W.h.blk id with
  | none => rw [hb] at this; simp [World.ofH] at this
  | some b =>
    refine ⟨b, rfl, ?_⟩
    rw [hb] at this
    simp only [peekFunctor, hm] at this
    unfold off
    cases hr : b.read (((accAt e (genIndex e x y z)).shift p.X p.Y p.Z).userRef C.L p.r m p.k) m.ty with
    | error u => rw [hr] at this; simp [Except.map, World.ofH] at this
    | ok v => rw [hr] at this; simp [Except.map, World.ofH] at this; rw [this]; rfl

theorem write_ok (hL : C.L.WF) {W : World V} {a : AWorld V} (hR : R C W a) {s : Nat} {e : Ext} {id : Nat} (hs : Has C W s e id)
    {p : Pos} {x y z : Int} (hin : InA C a (at' s p x y z)) {m : Member V} (hm : C.L[p.r]? = some m) (v : V) :
    ∃ b b' a', W.h.blk id = some b ∧ b.assign (off C.L e x y z p m) m.ty v = .ok b' ∧
      W.step C (.poke s x y z p.X p.Y p.Z p.r p.k v) = .ok (⟨W.h.set id b', W.g⟩, .unit) ∧ R C ⟨W.h.set id b', W.g⟩ a' ∧
      (∀ l, InA C a' l ↔ InA C a l) ∧ ∀ l, InA C a l → valA dv a' l = if l = at' s p x y z then v else valA dv a l := by
  obtain ⟨g, h1, h2, h3⟩ := hs
  obtain ⟨W', a', k1, k2, k3, k4⟩ := poke_step (dv := dv) hL hR (p := ⟨s, x, y, z, p.X, p.Y, p.Z, p.r, p.k⟩) hin v
  have k0 := k1
  simp only [World.step, World.withG, h1, Grid.callbackMut, h2, h3, onBuffer] at k1
  cases hb : W.h.blk id with
  | none => rw [hb] at k1; simp [World.ofH] at k1
  | some b =>
    rw [hb] at k1
    simp only [pokeFunctor, hm] at k1
    cases hr : b.assign (((accAt e (genIndex e x y z)).shift p.X p.Y p.Z).userRef C.L p.r m p.k) m.ty v with
    | error u => rw [hr] at k1; simp [World.ofH] at k1
    | ok b' =>
      rw [hr] at k1
      simp only [World.ofH, Except.ok.injEq, Prod.mk.injEq, and_true] at k1
      subst k1
      exact ⟨b, b', a', rfl, hr, k0, k2, k3, k4⟩

/-! ### Stores -/

/-- The addresses to which a store writes are those of the vector's elements. -/
theorem store_inside {I : SV.Impl w} {al : Nat} {store : I.V → Int → Option (Writes w)} (h : SV.Stores I al store) (v : I.V) (q : Int)
    (hq : (al : Int) ∣ q * (w / 8 : Nat)) : ∃ ws, store v q = some ws ∧ (∀ c ∈ ws, ∃ i < I.N, c.1 = q + (i : Nat)) ∧
      ∀ m, Accessible m q I.N → ∃ m', applyW m ws = some m' ∧ (∀ i < I.N, m' (q + (i : Nat)) = some (lane I v i)) := by
  classical
  let m0 : Mem w := fun p => if ∃ i < I.N, p = q + (i : Nat) then some 0 else none
  have hm0 : Accessible m0 q I.N := fun i hi => by
    simp only [m0]; rw [if_pos ⟨i, hi, rfl⟩]; rfl
  obtain ⟨ws, m', h1, h2, h3, h4⟩ := h m0 v q hq hm0
  refine ⟨ws, h1, ?_, fun m hm => ?_⟩
  · have key : ∀ (ws : Writes w) (m m' : Mem w), (∀ p, (m p).isSome → ∃ i < I.N, p = q + (i : Nat)) → applyW m ws = some m' →
        ∀ c ∈ ws, ∃ i < I.N, c.1 = q + (i : Nat) := by
      intro ws
      induction ws with
      | nil => intro m m' _ _ c hc; cases hc
      | cons d ws ih =>
        intro m m' hm he c hc
        simp only [applyW, wr] at he
        cases hd : m d.1 with
        | none => rw [hd] at he; simp at he
        | some y =>
          rw [hd] at he
          simp only [Option.bind_some] at he
          have hin := hm d.1 (by rw [hd]; rfl)
          rcases List.mem_cons.1 hc with rfl | hc
          · exact hin
          · refine ih _ m' ?_ he c hc
            intro p hp
            by_cases hpd : p = d.1
            · rw [hpd]; exact hin
            · rw [if_neg hpd] at hp; exact hm p hp
    refine key ws m0 m' (fun p hp => ?_) h2
    by_contra hne
    simp only [m0] at hp
    rw [if_neg hne] at hp
    simp at hp
  · obtain ⟨ws', m', k1, k2, k3, -⟩ := h m v q hq hm
    rw [h1] at k1; cases k1
    exact ⟨m', k2, k3⟩

/-- Pokes of the members at `(x + i, y, z)`, for given `i` and values. -/
def pokes (s : Nat) (p : Pos) (x y z : Int) (vs : List (Int × V)) : List (Op V) :=
  vs.map fun c => .poke s (x + c.1) y z p.X p.Y p.Z p.r p.k c.2

theorem run_append (W W' W'' : World V) (ops ops' : List (Op V)) (os os' : List (Out V)) (h : W.run C ops = .ok (W', os))
    (h' : W'.run C ops' = .ok (W'', os')) : W.run C (ops ++ ops') = .ok (W'', os ++ os') := by
  induction ops generalizing W os with
  | nil => simp only [World.run, Except.ok.injEq, Prod.mk.injEq] at h; obtain ⟨rfl, rfl⟩ := h; exact h'
  | cons op ops ih =>
    simp only [World.run, List.cons_append] at h ⊢
    cases h1 : W.step C op with
    | error u => rw [h1] at h; cases h
    | ok r =>
      obtain ⟨W1, o⟩ := r
      rw [h1] at h
      simp only at h ⊢
      cases h2 : World.run C W1 ops with
      | error u => rw [h2] at h; cases h
      | ok r =>
        obtain ⟨W2, os2⟩ := r
        rw [h2] at h
        simp only [Except.ok.injEq, Prod.mk.injEq] at h
        obtain ⟨rfl, rfl⟩ := h
        rw [ih W1 os2 h2]
        rfl

/-- The last value written to an address. -/
def last (p : Int) : Writes w → Option (BitVec w)
  | [] => none
  | (q, x) :: ws => match last p ws with
    | some y => some y
    | none => if q = p then some x else none

theorem applyW_last (ws : Writes w) (μ μ' : Mem w) (h : applyW μ ws = some μ') (p : Int) :
    μ' p = match last p ws with | some x => some x | none => μ p := by
  induction ws generalizing μ with
  | nil => simp only [applyW, Option.some.injEq] at h; subst h; rfl
  | cons c ws ih =>
    obtain ⟨q, x⟩ := c
    simp only [applyW, wr] at h
    cases hq : μ q with
    | none => rw [hq] at h; simp at h
    | some y =>
      rw [hq] at h
      simp only [Option.bind_some] at h
      rw [ih _ h, last]
      cases last p ws with
      | some x => rfl
      | none =>
        simp only
        by_cases hpq : q = p
        · subst hpq; simp
        · rw [if_neg hpq, if_neg (fun h => hpq h.symm)]

/-- What a store writes. -/
theorem store_last {I : SV.Impl w} {al : Nat} {store : I.V → Int → Option (Writes w)} (h : SV.Stores I al store) (hw : 0 < w) (v : I.V)
    (q : Int) (hq : (al : Int) ∣ q * (w / 8 : Nat)) : ∃ ws, store v q = some ws ∧ (∀ c ∈ ws, ∃ i < I.N, c.1 = q + (i : Nat)) ∧
      ∀ i < I.N, last (q + (i : Nat)) ws = some (lane I v i) := by
  obtain ⟨ws, h1, h2, h3⟩ := store_inside h v q hq
  refine ⟨ws, h1, h2, fun i hi => ?_⟩
  obtain ⟨μ0, k1, k2⟩ := h3 (fun _ => some 0) fun _ _ => rfl
  obtain ⟨μ1, k3, k4⟩ := h3 (fun _ => some (-1)) fun _ _ => rfl
  have e0 := applyW_last ws _ _ k1 (q + (i : Nat))
  have e1 := applyW_last ws _ _ k3 (q + (i : Nat))
  rw [k2 i hi] at e0
  rw [k4 i hi] at e1
  cases hl : last (q + (i : Nat)) ws with
  | some x => rw [hl] at e0; exact e0.symm
  | none =>
    rw [hl] at e0 e1
    simp only [Option.some.injEq] at e0 e1
    rw [e0] at e1
    exact absurd (congrArg (fun b : BitVec w => b.getLsbD 0) e1) (by simp [BitVec.neg_one_eq_allOnes, hw])

theorem set_same (h : Heap V) {id : Nat} {b : Block V} (hb : h.blk id = some b) : h.set id b = h := by
  unfold Heap.set
  congr 1
  funext i
  by_cases hi : i = id
  · subst hi; rw [if_pos rfl, hb]
  · rw [if_neg hi]

theorem set_set (h : Heap V) (id : Nat) (b b' : Block V) : (h.set id b).set id b' = h.set id b' := by
  unfold Heap.set
  congr 1
  funext i
  by_cases hi : i = id
  · simp [hi]
  · simp [hi]

/-- Stores to members: they have the same effect as assignments to single members. -/
theorem put_ok (hL : C.L.WF) (B : Bits w V) {s : Nat} {e : Ext} {id base : Nat} {p : Pos} {x y z : Int} {m : Member V}
    (hm : C.L[p.r]? = some m) (hsz : m.ty.size = w / 8) {q : Int} {N : Nat} (hN : 0 < N)
    (hq : q * (w / 8 : Nat) = base + off C.L e x y z p m) :
    ∀ (ws : Writes w) (W : World V) (a : AWorld V), R C W a → Has C W s e id →
      (∀ i < N, InA C a (at' s p (x + (i : Nat)) y z)) → (∀ c ∈ ws, ∃ i < N, c.1 = q + (i : Nat)) →
      ∃ b b' a' vs os, W.h.blk id = some b ∧ put B m.ty base ws b = .ok b' ∧ R C ⟨W.h.set id b', W.g⟩ a' ∧
        W.run C (pokes s p x y z vs) = .ok (⟨W.h.set id b', W.g⟩, os) ∧ (∀ c ∈ vs, ∃ i < N, c.1 = (i : Nat)) ∧
        (∀ l, InA C a' l ↔ InA C a l) ∧
        (∀ i < N, valA dv a' (at' s p (x + (i : Nat)) y z) =
          match last (q + (i : Nat)) ws with | some x => B.val x | none => valA dv a (at' s p (x + (i : Nat)) y z)) ∧
        ∀ l, InA C a l → (∀ i < N, l ≠ at' s p (x + (i : Nat)) y z) → valA dv a' l = valA dv a l := by
  intro ws
  induction ws with
  | nil =>
    intro W a hR hH hin _
    obtain ⟨b, h1, -⟩ := read_ok (dv := dv) hL hR hH (hin 0 hN) hm
    have e1 : W.h.set id b = W.h := set_same _ h1
    refine ⟨b, b, a, [], [], h1, rfl, by rw [e1]; exact hR, by rw [e1]; rfl, fun c hc => (by cases hc), fun _ => Iff.rfl, fun i hi => rfl,
      fun _ _ _ => rfl⟩
  | cons c ws ih =>
    intro W a hR hH hin hws
    obtain ⟨j, hj, hcj⟩ := hws c List.mem_cons_self
    obtain ⟨qc, xc⟩ := c
    simp only at hcj
    subst hcj
    obtain ⟨b, b1, a1, h1, h2, h3, h4, h5, h6⟩ := write_ok (dv := dv) hL hR hH (hin j hj) hm (B.val xc)
    have hH1 : Has C ⟨W.h.set id b1, W.g⟩ s e id := hH
    obtain ⟨b1', b', a', vs, os, k1, k2, k3, k4, k5, k6, k7, k8⟩ := ih ⟨W.h.set id b1, W.g⟩ a1 h4 hH1
      (fun i hi => (h5 _).2 (hin i hi)) fun c hc => hws c (List.mem_cons_of_mem _ hc)
    have e1 : b1' = b1 := by
      simp only [Heap.set, if_true, Option.some.injEq] at k1; exact k1.symm
    subst e1
    simp only [set_set] at k3 k4
    have e2 : (q + (j : Nat)) * (w / 8 : Nat) - base = off C.L e (x + (j : Nat)) y z p m := by
      rw [off_add, Int.add_mul, hq, hsz]; ring
    refine ⟨b, b', a', ((j : Int), B.val xc) :: vs, .unit :: os, h1, ?_, k3, ?_, ?_, fun l => (k6 l).trans (h5 l), fun i hi => ?_,
      fun l hl hne => ?_⟩
    · simp only [put, e2, h2, Except.bind]
      exact k2
    · simp only [pokes, List.map_cons, World.run, h3]
      rw [show List.map _ vs = pokes s p x y z vs from rfl, k4]
    · intro c hc
      rcases List.mem_cons.1 hc with rfl | hc
      · exact ⟨j, hj, rfl⟩
      · exact k5 c hc
    · rw [k7 i hi, last]
      cases last (q + (i : Nat)) ws with
      | some x => rfl
      | none =>
        simp only
        rw [h6 _ (hin i hi)]
        by_cases hij : i = j
        · subst hij; simp
        · rw [if_neg, if_neg]
          · omega
          · intro he
            simp only [at', Loc.mk.injEq] at he
            omega
    · rw [k8 l ((h5 l).2 hl) hne, h6 l hl, if_neg (hne j hj)]

/-! ### The body -/

/-- Alignment demanded by the loads of a mode. -/
def Mode.loadReq (M : Mode) (Q : Reqs) : Nat :=
  match M with
  | .plain | .streaming => Q.any
  | .aligned => Q.aligned

/-- Alignment demanded by the stores of a mode. `none`: the target has no such stores. -/
def Mode.storeReq (M : Mode) (Q : Reqs) : Option Nat :=
  match M with
  | .plain => some Q.any
  | .aligned => some Q.aligned
  | .streaming => Q.nt

theorem Mode.load_ok {I : SV.Impl w} {Q : Reqs} {E : FEnv} (T : Transfers I Q E) (M : Mode) : SV.Loads I (M.loadReq Q) (M.load I E) := by
  cases M with
  | plain => exact T.pointer
  | streaming => exact T.pointer
  | aligned => exact T.load_aligned _

theorem Mode.store_ok {I : SV.Impl w} {Q : Reqs} {E : FEnv} (T : Transfers I Q E) (M : Mode) {al : Nat} (h : M.storeReq Q = some al) :
    SV.Stores I al (M.store I E) := by
  cases M with
  | plain => cases h; exact T.shift
  | aligned => cases h; exact T.store_aligned
  | streaming => exact (T.streaming al h).1

/-- The grid from which variable `j` is read. -/
def Stencil.slot (K : Stencil w) (s o j : Nat) : Nat := if K.new j then o else s

/-- The location of variable `j` for the cell `(x, y, z)`. -/
def Stencil.srcLoc (K : Stencil w) (s o j : Nat) (x y z : Int) : Loc := at' (K.slot s o j) (K.src j) x y z

/-- The location which is written for the cell `(x, y, z)`. -/
def Stencil.dstLoc (K : Stencil w) (o : Nat) (x y z : Int) : Loc := at' o K.dst x y z

/-- A member of the vector's type, the pointer to which is aligned. -/
def Pointer (C : Cfg V) (w : Nat) (base : Nat) (e : Ext) (al : Nat) (p : Pos) (x y z : Int) : Prop :=
  ∃ m, C.L[p.r]? = some m ∧ m.ty.size = w / 8 ∧ ((w / 8 : Nat) : Int) ∣ addr C.L base e x y z p m ∧ (al : Int) ∣ addr C.L base e x y z p m

theorem load_ok (hL : C.L.WF) (B : Bits w V) (base : Nat → Nat) (E : FEnv) {K : Stencil w} {A : Pair} {e : Entry w} {Q : Reqs}
    (T : Transfers e.impl Q E) (hw : 0 < w / 8) (hN : 0 < e.impl.N) {s o : Nat} {W : World V} {a : AWorld V} (hR : R C W a)
    (hs : Has C W s A.es A.ids) (ho : Has C W o A.et A.idt) (x y z : Int) (j : Nat)
    (hp : Pointer C w (base (if K.new j then A.idt else A.ids)) (if K.new j then A.et else A.es) (K.mode.loadReq Q) (K.src j) x y z)
    (hin : ∀ i < e.impl.N, InA C a (K.srcLoc s o j (x + (i : Nat)) y z)) (β : Nat → BitVec w)
    (hβ : ∀ i < e.impl.N, B.bits (valA dv a (K.srcLoc s o j (x + (i : Nat)) y z)) = some (β i)) :
    ∃ v, load ⟨C.L, B, base, E⟩ K A e W.h x y z j = some v ∧ ∀ i < e.impl.N, lane e.impl v i = β i := by
  obtain ⟨m, h1, h2, h3, h4⟩ := hp
  have hH : Has C W (K.slot s o j) (if K.new j then A.et else A.es) (if K.new j then A.idt else A.ids) := by
    unfold Stencil.slot
    cases K.new j <;> simpa
  generalize hid : (if K.new j then A.idt else A.ids) = id at *
  generalize hext : (if K.new j then A.et else A.es) = ext at *
  obtain ⟨b, hb, -⟩ := read_ok (dv := dv) hL hR hH (hin 0 hN) h1
  obtain ⟨q, hq⟩ := h3
  have hq' : q * (w / 8 : Nat) = base id + off C.L ext x y z (K.src j) m := by rw [Int.mul_comm, ← hq]; rfl
  have hview : ∀ i < e.impl.N, view B m.ty (base id) b (q + (i : Nat)) = some (β i) := by
    intro i hi
    obtain ⟨b', hb', hr⟩ := read_ok (dv := dv) hL hR hH (hin i hi) h1
    rw [hb] at hb'; cases hb'
    have e1 : (q + (i : Nat)) * (w / 8 : Nat) - base id = off C.L ext (x + (i : Nat)) y z (K.src j) m := by
      rw [off_add, Int.add_mul, hq', h2]; ring
    unfold view
    rw [e1, hr]
    exact hβ i hi
  obtain ⟨v, k1, k2⟩ := Mode.load_ok T K.mode (view B m.ty (base id) b) q (by rw [Int.mul_comm, ← hq]; exact h4) fun i hi => by
    rw [hview i hi]; rfl
  refine ⟨v, ?_, fun i hi => ?_⟩
  · unfold load
    simp only [hid, hext, h1, hb]
    rw [elem, if_pos ⟨h2, ⟨q, hq⟩⟩, hq, Int.mul_ediv_cancel_left _ (by omega)]
    exact k1
  · have := k2 i hi
    rw [hview i hi] at this
    exact (Option.some.inj this).symm

theorem body_ok (hL : C.L.WF) (B : Bits w V) (base : Nat → Nat) (E : FEnv) {K : Stencil w} {A : Pair} {e : Entry w} {F : FOps w} {Q : Reqs}
    {d f c : Bool} (H : Faithful e.impl e.cmp E F d f c) (T : Transfers e.impl Q E) (hk : K.code.only d f c = true) (hw : 0 < w / 8)
    (hN : 0 < e.impl.N) {al : Nat} (hal : K.mode.storeReq Q = some al) {s o : Nat} {W : World V} {a : AWorld V} (hR : R C W a)
    (hs : Has C W s A.es A.ids) (ho : Has C W o A.et A.idt) (x y z : Int)
    (hp : ∀ j ∈ K.code.vars,
      Pointer C w (base (if K.new j then A.idt else A.ids)) (if K.new j then A.et else A.es) (K.mode.loadReq Q) (K.src j) x y z)
    (hpd : Pointer C w (base A.idt) A.et al K.dst x y z)
    (hin : ∀ j ∈ K.code.vars, ∀ i < e.impl.N, InA C a (K.srcLoc s o j (x + (i : Nat)) y z))
    (hind : ∀ i < e.impl.N, InA C a (K.dstLoc o (x + (i : Nat)) y z)) (β : Nat → Nat → BitVec w)
    (hβ : ∀ j ∈ K.code.vars, ∀ i < e.impl.N, B.bits (valA dv a (K.srcLoc s o j (x + (i : Nat)) y z)) = some (β i j)) :
    ∃ h' a' vs os, body ⟨C.L, B, base, E⟩ K A e x y z W.h = some h' ∧ R C ⟨h', W.g⟩ a' ∧
      W.run C (pokes o K.dst x y z vs) = .ok (⟨h', W.g⟩, os) ∧ (∀ v ∈ vs, ∃ i < e.impl.N, v.1 = (i : Nat)) ∧
      (∀ l, InA C a' l ↔ InA C a l) ∧
      (∀ i < e.impl.N, valA dv a' (K.dstLoc o (x + (i : Nat)) y z) = B.val (K.code.scalar F (β i))) ∧
      ∀ l, InA C a l → (∀ i < e.impl.N, l ≠ K.dstLoc o (x + (i : Nat)) y z) → valA dv a' l = valA dv a l := by
  have hv : ∀ j ∈ K.code.vars, ∃ v, load ⟨C.L, B, base, E⟩ K A e W.h x y z j = some v ∧ ∀ i < e.impl.N, lane e.impl v i = β i j :=
    fun j hj => load_ok (dv := dv) hL B base E T hw hN hR hs ho x y z j (hp j hj) (hin j hj) (fun i => β i j) (hβ j hj)
  obtain ⟨v, h1, h2⟩ := H.vec _ β K.code hk hv
  obtain ⟨m, m1, m2, ⟨q, hq⟩, m4⟩ := hpd
  have hq' : q * (w / 8 : Nat) = base A.idt + off C.L A.et x y z K.dst m := by rw [Int.mul_comm, ← hq]; rfl
  obtain ⟨ws, h3, h4, h5⟩ := store_last (Mode.store_ok T K.mode hal) (by omega) v q (by rw [Int.mul_comm, ← hq]; exact m4)
  obtain ⟨b, b', a', vs, os, k1, k2, k3, k4, k5, k6, k7, k8⟩ := put_ok (dv := dv) hL B m1 m2 hN hq' ws W a hR ho hind h4
  refine ⟨W.h.set A.idt b', a', vs, os, ?_, k3, k4, k5, k6, fun i hi => ?_, k8⟩
  · unfold body
    simp only [h1, Option.bind_some, m1, k1]
    rw [elem, if_pos ⟨m2, ⟨q, hq⟩⟩, hq, Int.mul_ediv_cancel_left _ (by omega)]
    simp only [Option.bind_some, h3, k2]
  · rw [Stencil.dstLoc, k7 i hi, h5 i hi]
    simp only [h2 i hi]

/-! ### Sequences of calls -/

/-- The cells which a call processes. -/
def At.cells (c : At) : List (Int × Int × Int) := (Peel.iota c.x c.a).map fun x => (x, c.y, c.z)

/-- The cells which calls process, in order. -/
def cells (cs : List At) : List (Int × Int × Int) := cs.flatMap At.cells

/-- All pointers of a call are fine. -/
def Pointers (C : Cfg V) (base : Nat → Nat) (K : Stencil w) (A : Pair) (Q : Reqs) (c : At) : Prop :=
  (∀ j ∈ K.code.vars, Pointer C w (base (if K.new j then A.idt else A.ids)) (if K.new j then A.et else A.es) (K.mode.loadReq Q) (K.src j)
    c.x c.y c.z) ∧ ∃ al, K.mode.storeReq Q = some al ∧ Pointer C w (base A.idt) A.et al K.dst c.x c.y c.z

/-- Cells which are processed later do not read what has been written before. -/
def Stencil.NoHazard (K : Stencil w) (s o : Nat) (ps : List (Int × Int × Int)) : Prop :=
  ps.Pairwise fun p' p => ∀ j ∈ K.code.vars, K.dstLoc o p'.1 p'.2.1 p'.2.2 ≠ K.srcLoc s o j p.1 p.2.1 p.2.2

theorem mem_cells {c : At} {p : Int × Int × Int} : p ∈ c.cells ↔ ∃ i < c.a, p = (c.x + (i : Nat), c.y, c.z) := by
  unfold At.cells Peel.iota
  simp only [List.map_map, List.mem_map, List.mem_range, Function.comp]
  constructor
  · rintro ⟨i, hi, rfl⟩; exact ⟨i, hi, rfl⟩
  · rintro ⟨i, hi, rfl⟩; exact ⟨i, hi, rfl⟩

theorem dstLoc_inj {K : Stencil w} {o : Nat} {x y z x' y' z' : Int} (h : K.dstLoc o x y z = K.dstLoc o x' y' z') :
    x = x' ∧ y = y' ∧ z = z' := by
  simp only [Stencil.dstLoc, at', Loc.mk.injEq] at h
  omega

theorem calls_ok (hL : C.L.WF) (B : Bits w V) (base : Nat → Nat) (E : FEnv) {K : Stencil w} {A : Pair} {e1 e : Entry w} {F : FOps w}
    {Q1 Q : Reqs} {d f c : Bool} (H1 : Faithful e1.impl e1.cmp E F d f c) (H : Faithful e.impl e.cmp E F d f c)
    (T1 : Transfers e1.impl Q1 E) (T : Transfers e.impl Q E) (h1 : e1.impl.N = 1) (hN : 0 < e.impl.N) (hw : 0 < w / 8)
    (hk : K.code.only d f c = true) {s o : Nat} (σ : Loc → V) (β : Int × Int × Int → Nat → BitVec w) (dom : Loc → Prop) :
    ∀ (cs : List At) (done : List (Int × Int × Int)) (W : World V) (a : AWorld V), R C W a → Has C W s A.es A.ids →
      Has C W o A.et A.idt → (∀ l, InA C a l ↔ dom l) → (∀ c ∈ cs, c.a = 1 ∨ c.a = e.impl.N) →
      (∀ c ∈ cs, Pointers C base K A (if c.a = e.impl.N then Q else Q1) c) →
      (∀ p ∈ cells cs, dom (K.dstLoc o p.1 p.2.1 p.2.2)) →
      (∀ p ∈ cells cs, ∀ j ∈ K.code.vars, dom (K.srcLoc s o j p.1 p.2.1 p.2.2) ∧
        B.bits (σ (K.srcLoc s o j p.1 p.2.1 p.2.2)) = some (β p j)) →
      K.NoHazard s o (done ++ cells cs) →
      (∀ p ∈ done, dom (K.dstLoc o p.1 p.2.1 p.2.2) ∧ valA dv a (K.dstLoc o p.1 p.2.1 p.2.2) = B.val (K.code.scalar F (β p))) →
      (∀ l, dom l → (∀ p ∈ done, l ≠ K.dstLoc o p.1 p.2.1 p.2.2) → valA dv a l = σ l) →
      ∃ h' a' vs os, calls ⟨C.L, B, base, E⟩ K A e1 e cs W.h = some h' ∧ R C ⟨h', W.g⟩ a' ∧
        W.run C vs = .ok (⟨h', W.g⟩, os) ∧
        (∀ op ∈ vs, ∃ p ∈ cells cs, ∃ v, op = .poke o p.1 p.2.1 p.2.2 K.dst.X K.dst.Y K.dst.Z K.dst.r K.dst.k v) ∧
        (∀ l, InA C a' l ↔ dom l) ∧
        (∀ p ∈ done ++ cells cs, valA dv a' (K.dstLoc o p.1 p.2.1 p.2.2) = B.val (K.code.scalar F (β p))) ∧
        ∀ l, dom l → (∀ p ∈ done ++ cells cs, l ≠ K.dstLoc o p.1 p.2.1 p.2.2) → valA dv a' l = σ l := by
  intro cs
  induction cs with
  | nil =>
    intro done W a hR hs ho hdom _ _ _ _ _ hv hf
    refine ⟨W.h, a, [], [], rfl, hR, rfl, fun _ h => (by cases h), hdom, ?_, ?_⟩
    · simpa [cells] using fun x y z h => (hv (x, y, z) h).2
    · simpa [cells] using hf
  | cons c cs ih =>
    intro done W a hR hs ho hdom hc hptr hd hsrc hh hv hf
    have ecells : cells (c :: cs) = c.cells ++ cells cs := rfl
    rw [ecells] at hd hsrc hh
    have hb : ∃ h' a' vs os, body ⟨C.L, B, base, E⟩ K A (if c.a = e.impl.N then e else e1) c.x c.y c.z W.h = some h' ∧ R C ⟨h', W.g⟩ a' ∧
        W.run C (pokes o K.dst c.x c.y c.z vs) = .ok (⟨h', W.g⟩, os) ∧ (∀ v ∈ vs, ∃ i < c.a, v.1 = (i : Nat)) ∧
        (∀ l, InA C a' l ↔ InA C a l) ∧
        (∀ i < c.a, valA dv a' (K.dstLoc o (c.x + (i : Nat)) c.y c.z) = B.val (K.code.scalar F (β (c.x + (i : Nat), c.y, c.z)))) ∧
        ∀ l, InA C a l → (∀ i < c.a, l ≠ K.dstLoc o (c.x + (i : Nat)) c.y c.z) → valA dv a' l = valA dv a l := by
      have hin : ∀ j ∈ K.code.vars, ∀ i < c.a, InA C a (K.srcLoc s o j (c.x + (i : Nat)) c.y c.z) := fun j hj i hi =>
        (hdom _).2 (hsrc _ (List.mem_append_left _ (mem_cells.2 ⟨i, hi, rfl⟩)) j hj).1
      have hind : ∀ i < c.a, InA C a (K.dstLoc o (c.x + (i : Nat)) c.y c.z) := fun i hi =>
        (hdom _).2 (hd _ (List.mem_append_left _ (mem_cells.2 ⟨i, hi, rfl⟩)))
      have hβ : ∀ j ∈ K.code.vars, ∀ i < c.a, B.bits (valA dv a (K.srcLoc s o j (c.x + (i : Nat)) c.y c.z)) =
          some (β (c.x + (i : Nat), c.y, c.z) j) := by
        intro j hj i hi
        have hm := List.mem_append_left (cells cs) (mem_cells.2 ⟨i, hi, rfl⟩ : (c.x + (i : Nat), c.y, c.z) ∈ c.cells)
        rw [hf _ (hsrc _ hm j hj).1 fun p hp he => ?_]
        · exact (hsrc _ hm j hj).2
        · exact (List.pairwise_append.1 hh).2.2 p hp _ hm j hj he.symm
      obtain ⟨q1, al, q2, q3⟩ := hptr c List.mem_cons_self
      by_cases hA : c.a = e.impl.N
      · rw [if_pos hA] at q1 q2 ⊢
        rw [hA] at hin hind hβ ⊢
        exact body_ok (dv := dv) hL B base E H T hk hw hN q2 hR hs ho c.x c.y c.z q1 q3 hin hind _ hβ
      · rw [if_neg hA] at q1 q2 ⊢
        have ha1 : c.a = e1.impl.N := by
          rcases hc c List.mem_cons_self with h | h
          · rw [h, h1]
          · exact absurd h hA
        rw [ha1] at hin hind hβ ⊢
        exact body_ok (dv := dv) hL B base E H1 T1 hk hw (by omega) q2 hR hs ho c.x c.y c.z q1 q3 hin hind _ hβ
    obtain ⟨h', a', vs, os, k1, k2, k3, k4, k5, k6, k7⟩ := hb
    have hdom' : ∀ l, InA C a' l ↔ dom l := fun l => (k5 l).trans (hdom l)
    obtain ⟨h'', a'', vs', os', r1, r2, r3, r4, r5, r6, r7⟩ := ih (done ++ c.cells) ⟨h', W.g⟩ a' k2 hs ho hdom'
      (fun c' hc' => hc c' (List.mem_cons_of_mem _ hc')) (fun c' hc' => hptr c' (List.mem_cons_of_mem _ hc'))
      (fun p hp => hd p (List.mem_append_right _ hp)) (fun p hp => hsrc p (List.mem_append_right _ hp))
      (by rw [List.append_assoc]; exact hh)
      (by
        intro p hp
        by_cases hpc : p ∈ c.cells
        · obtain ⟨i, hi, rfl⟩ := mem_cells.1 hpc
          exact ⟨hd _ (List.mem_append_left _ hpc), k6 i hi⟩
        · rcases List.mem_append.1 hp with hp | hp
          · refine ⟨(hv p hp).1, ?_⟩
            rw [k7 _ ((hdom _).2 (hv p hp).1) fun i hi he => ?_]
            · exact (hv p hp).2
            · obtain ⟨e1, e2, e3⟩ := dstLoc_inj he
              exact hpc (mem_cells.2 ⟨i, hi, by rw [← e1, ← e2, ← e3]⟩)
          · exact absurd hp hpc)
      (by
        intro l hl hne
        rw [k7 l ((hdom l).2 hl) fun i hi => hne _ (List.mem_append_right _ (mem_cells.2 ⟨i, hi, rfl⟩))]
        exact hf l hl fun p hp => hne p (List.mem_append_left _ hp))
    refine ⟨h'', a'', pokes o K.dst c.x c.y c.z vs ++ vs', os ++ os', ?_, r2, run_append _ _ _ _ _ _ _ k3 r3, ?_, r5, ?_, ?_⟩
    · rw [calls, k1, Option.bind_some]; exact r1
    · intro op hop
      rcases List.mem_append.1 hop with hop | hop
      · unfold pokes at hop
        obtain ⟨v, hv', rfl⟩ := List.mem_map.1 hop
        obtain ⟨i, hi, hvi⟩ := k4 v hv'
        exact ⟨_, List.mem_append_left _ (mem_cells.2 ⟨i, hi, rfl⟩), v.2, by rw [hvi]⟩
      · obtain ⟨p, hp, v, rfl⟩ := r4 op hop
        exact ⟨p, List.mem_append_right _ hp, v, rfl⟩
    · rw [ecells, ← List.append_assoc]; exact r6
    · rw [ecells, ← List.append_assoc]; exact r7

/-! ### Rows and boxes -/

theorem calls_append (T : Env w V) (K : Stencil w) (A : Pair) (e1 e : Entry w) (cs cs' : List At) (h : Heap V) :
    calls T K A e1 e (cs ++ cs') h = (calls T K A e1 e cs h).bind (calls T K A e1 e cs') := by
  induction cs generalizing h with
  | nil => rfl
  | cons c cs ih =>
    simp only [calls, List.cons_append]
    cases body T K A (if c.a = e.impl.N then e else e1) c.x c.y c.z h with
    | none => rfl
    | some h' => exact ih h'

/-- The calls of all rows. -/
def boxCalls (pc : List (Nat × Int)) (rs : List (Int × Int)) : List At :=
  rs.flatMap fun r => pc.map fun c => ⟨c.1, c.2, r.1, r.2⟩

theorem sweep_calls (T : Env w V) (K : Stencil w) (A : Pair) (t : Peel.CTy) (e1 e : Entry w) (b : Box) {pc : List (Nat × Int)} {stop : Int}
    (hp : Peel.peel t e.impl.N b.x0 b.x1 = some (pc, stop)) (rs : List (Int × Int)) (h : Heap V) :
    sweep T K A t e1 e b rs h = calls T K A e1 e (boxCalls pc rs) h := by
  induction rs generalizing h with
  | nil => rfl
  | cons r rs ih =>
    obtain ⟨y, z⟩ := r
    simp only [sweep, rowCalls, hp, Option.map_some, Option.bind_some, boxCalls, List.flatMap_cons]
    rw [calls_append]
    congr 1
    funext h'
    exact ih h'

/-- The cells of the box, in the order of the loops. -/
def Box.cells (b : Box) : List (Int × Int × Int) :=
  b.rows.flatMap fun r => (Peel.iota b.x0 (b.x1 - b.x0).toNat).map fun x => (x, r.1, r.2)

theorem boxCalls_cells (b : Box) {pc : List (Nat × Int)} (hp : Peel.visits pc = Peel.iota b.x0 (b.x1 - b.x0).toNat) :
    cells (boxCalls pc b.rows) = b.cells := by
  unfold cells boxCalls Box.cells
  rw [List.flatMap_assoc]
  congr 1
  funext r
  rw [← hp, Peel.visits, List.flatMap_map, List.map_flatMap]
  rfl

/-- The cell is in the box. -/
def Box.Has (b : Box) (x y z : Int) : Prop := b.x0 ≤ x ∧ x < b.x1 ∧ b.y0 ≤ y ∧ y < b.y1 ∧ b.z0 ≤ z ∧ z < b.z1

instance (b : Box) (x y z : Int) : Decidable (b.Has x y z) := by unfold Box.Has; infer_instance

theorem mem_iota {x : Int} {n : Nat} {i : Int} : i ∈ Peel.iota x n ↔ x ≤ i ∧ i < x + n := by
  unfold Peel.iota
  simp only [List.mem_map, List.mem_range]
  constructor
  · rintro ⟨j, hj, rfl⟩; omega
  · rintro ⟨h1, h2⟩; exact ⟨(i - x).toNat, by omega, by omega⟩

theorem Box.mem_rows {b : Box} {y z : Int} : (y, z) ∈ b.rows ↔ b.y0 ≤ y ∧ y < b.y1 ∧ b.z0 ≤ z ∧ z < b.z1 := by
  unfold Box.rows
  simp only [List.mem_flatMap, List.mem_map, mem_iota, Prod.mk.injEq]
  constructor
  · rintro ⟨z', h1, y', h2, rfl, rfl⟩; omega
  · intro h; exact ⟨z, by omega, y, by omega, rfl, rfl⟩

theorem Box.mem_cells {b : Box} {p : Int × Int × Int} : p ∈ b.cells ↔ b.Has p.1 p.2.1 p.2.2 := by
  obtain ⟨x, y, z⟩ := p
  unfold Box.cells Box.Has
  simp only [List.mem_flatMap, List.mem_map, mem_iota, Prod.mk.injEq]
  constructor
  · rintro ⟨⟨y', z'⟩, h1, x', h2, rfl, rfl, rfl⟩
    have := Box.mem_rows.1 h1
    simp only
    omega
  · intro h; exact ⟨(y, z), Box.mem_rows.2 (by omega), x, by omega, rfl, rfl, rfl⟩

/-- `(x, y, z)` comes before `(x', y', z')` in the loops. -/
def Before (x y z x' y' z' : Int) : Prop := z < z' ∨ z = z' ∧ (y < y' ∨ y = y' ∧ x < x')

instance (x y z x' y' z' : Int) : Decidable (Before x y z x' y' z') := by unfold Before; infer_instance

theorem iota_sorted (x : Int) (n : Nat) : (Peel.iota x n).Pairwise (· < ·) := by
  unfold Peel.iota
  rw [List.pairwise_map]
  exact List.pairwise_lt_range.imp fun h => by omega

theorem Box.sorted (b : Box) : b.cells.Pairwise fun p q => Before p.1 p.2.1 p.2.2 q.1 q.2.1 q.2.2 := by
  have hr : b.rows.Pairwise fun r r' => r.2 < r'.2 ∨ r.2 = r'.2 ∧ r.1 < r'.1 := by
    unfold Box.rows
    rw [List.pairwise_flatMap]
    refine ⟨fun z _ => ?_, ?_⟩
    · rw [List.pairwise_map]
      exact (iota_sorted _ _).imp fun h => .inr ⟨rfl, h⟩
    · refine (iota_sorted _ _).imp fun h r hr r' hr' => ?_
      simp only [List.mem_map] at hr hr'
      obtain ⟨_, _, rfl⟩ := hr
      obtain ⟨_, _, rfl⟩ := hr'
      exact .inl h
  unfold Box.cells
  rw [List.pairwise_flatMap]
  refine ⟨fun r _ => ?_, ?_⟩
  · rw [List.pairwise_map]
    exact (iota_sorted _ _).imp fun h => .inr ⟨rfl, .inr ⟨rfl, h⟩⟩
  · refine hr.imp fun h p hp p' hp' => ?_
    simp only [List.mem_map] at hp hp'
    obtain ⟨_, _, rfl⟩ := hp
    obtain ⟨_, _, rfl⟩ := hp'
    rcases h with h | ⟨h, h'⟩
    · exact .inl h
    · exact .inr ⟨h, .inl h'⟩

/-- The functor does not read what it has written: a variable is read from another grid or from another member than the one which is
    written, or its cell is not before the one which is written. -/
def Stencil.Safe (K : Stencil w) (s o : Nat) : Prop :=
  ∀ j ∈ K.code.vars, K.slot s o j = o → (K.src j).r = K.dst.r → (K.src j).k = K.dst.k →
    ¬ Before (K.src j).X (K.src j).Y (K.src j).Z K.dst.X K.dst.Y K.dst.Z

theorem Stencil.Safe.noHazard {K : Stencil w} {s o : Nat} (h : K.Safe s o) (b : Box) : K.NoHazard s o b.cells := by
  refine b.sorted.imp ?_
  rintro ⟨x, y, z⟩ ⟨x', y', z'⟩ hb j hj he
  simp only [Stencil.dstLoc, Stencil.srcLoc, at', Loc.mk.injEq] at he
  refine h j hj he.1.symm he.2.2.2.2.1.symm he.2.2.2.2.2.symm ?_
  simp only [Before] at hb ⊢
  omega

/-! ### Pointers -/

/-- A member of the vector's type, to all objects of which there are aligned pointers. For vectors of `al` bytes the first cell of each row
    of the box is aligned. -/
def Fine (C : Cfg V) (w base : Nat) (e : Ext) (al : Nat) (b : Box) (p : Pos) : Prop :=
  ∃ m, C.L[p.r]? = some m ∧ m.ty.size = w / 8 ∧ w / 8 ∣ base ∧ w / 8 ∣ e.x * e.y * e.z * offset C.L p.r ∧
    ∀ y z, b.y0 ≤ y → y < b.y1 → b.z0 ≤ z → z < b.z1 → (al : Int) ∣ addr C.L base e 0 y z p m

theorem addr_add (L : Layout V) (base : Nat) (e : Ext) (x y z : Int) (p : Pos) (m : Member V) :
    addr L base e x y z p m = addr L base e 0 y z p m + x * m.ty.size := by
  have := off_add L e 0 y z p m x
  rw [Int.zero_add] at this
  unfold addr
  unfold off at this
  rw [this]; ring

theorem addr_form (L : Layout V) (base : Nat) (e : Ext) (x y z : Int) (p : Pos) (m : Member V) :
    ∃ n : Int, addr L base e x y z p m = base + ((e.x * e.y * e.z * offset L p.r : Nat) : Int) + n * m.ty.size ∧
      ∀ N : Int, N ∣ e.x → N ∣ x + p.X → N ∣ n := by
  have hdvd : ∀ N q : Int, N ∣ e.x → N ∣ x + p.X → N ∣ e.x * q + (x + p.X) := fun N q h h' => Int.dvd_add (Dvd.dvd.mul_right h q) h'
  unfold addr Acc.userRef
  cases hm : m.arity with
  | none =>
    refine ⟨e.x * (z * e.y + y + p.Z * e.y + p.Y) + (x + p.X), ?_, fun N => hdvd N _⟩
    simp only [Acc.member, Acc.shift, accAt, genIndex, hm, Ext.prod]
    push_cast; ring
  | some _ =>
    refine ⟨e.x * (z * e.y + y + p.Z * e.y + p.Y + p.k * (e.y * e.z)) + (x + p.X), ?_, fun N => hdvd N _⟩
    simp only [Acc.arrayRef, Acc.member, Acc.shift, accAt, genIndex, hm, Ext.prod]
    push_cast; ring

theorem Fine.pointer {base : Nat} {e : Ext} {al : Nat} {b : Box} {p : Pos} (h : Fine C w base e al b p) {x y z : Int}
    (hr : (y, z) ∈ b.rows) {N al' : Nat} (hx : (N : Int) ∣ x) (hal : al' ∣ al) (hN : al' ∣ N * (w / 8)) :
    Pointer C w base e al' p x y z := by
  obtain ⟨m, h1, h2, h3, h4, h5⟩ := h
  refine ⟨m, h1, h2, ?_, ?_⟩
  · obtain ⟨n, hn, -⟩ := addr_form C.L base e x y z p m
    rw [hn, h2]
    exact Int.dvd_add (Int.dvd_add (Int.natCast_dvd_natCast.2 h3) (Int.natCast_dvd_natCast.2 h4)) ⟨n, Int.mul_comm _ _⟩
  · rw [addr_add, h2]
    have hb := Box.mem_rows.1 hr
    obtain ⟨q, rfl⟩ := hx
    refine Int.dvd_add (Int.dvd_trans (Int.natCast_dvd_natCast.2 hal) (h5 y z hb.1 hb.2.1 hb.2.2.1 hb.2.2.2)) ?_
    have : ((al' : Int)) ∣ (N : Int) * (w / 8 : Nat) := by exact_mod_cast Int.natCast_dvd_natCast.2 hN
    obtain ⟨q', hq'⟩ := this
    exact ⟨q' * q, by rw [← Int.mul_assoc, ← hq']; ring⟩

theorem Fine.pointer1 {base : Nat} {e : Ext} {al : Nat} {b : Box} {p : Pos} (h : Fine C w base e al b p) {x y z : Int}
    {al' : Nat} (hal : al' ∣ w / 8) : Pointer C w base e al' p x y z := by
  obtain ⟨m, h1, h2, h3, h4, h5⟩ := h
  have : ((w / 8 : Nat) : Int) ∣ addr C.L base e x y z p m := by
    obtain ⟨n, hn, -⟩ := addr_form C.L base e x y z p m
    rw [hn, h2]
    exact Int.dvd_add (Int.dvd_add (Int.natCast_dvd_natCast.2 h3) (Int.natCast_dvd_natCast.2 h4)) ⟨n, Int.mul_comm _ _⟩
  exact ⟨m, h1, h2, this, Int.dvd_trans (Int.natCast_dvd_natCast.2 hal) this⟩

/-! ### The functor -/

/-- The value which the scalar code computes for a cell. -/
def Stencil.result (K : Stencil w) (B : Bits w V) (F : FOps w) (s o : Nat) (σ : Loc → V) (x y z : Int) : V :=
  B.val (K.code.scalar F fun j => (B.bits (σ (K.srcLoc s o j x y z))).getD 0)

/-- The scalar code, applied to all cells of the box at once. -/
def Stencil.apply (K : Stencil w) (B : Bits w V) (F : FOps w) (s o : Nat) (b : Box) (σ : Loc → V) : Loc → V := fun l =>
  if l.s = o ∧ l.r = K.dst.r ∧ l.k = K.dst.k ∧ b.Has (l.x - K.dst.X) (l.y - K.dst.Y) (l.z - K.dst.Z)
  then K.result B F s o σ (l.x - K.dst.X) (l.y - K.dst.Y) (l.z - K.dst.Z) else σ l

/-- Everything which the functor accesses for cells of the box is inside, and variables are numbers. -/
def Stencil.Inside (K : Stencil w) (B : Bits w V) (s o : Nat) (b : Box) (dom : Loc → Prop) (σ : Loc → V) : Prop :=
  ∀ x y z, b.Has x y z → dom (K.dstLoc o x y z) ∧
    ∀ j ∈ K.code.vars, dom (K.srcLoc s o j x y z) ∧ (B.bits (σ (K.srcLoc s o j x y z))).isSome = true

/-- Requirements on the accesses of both variants of the body. -/
structure Stencil.Accesses (K : Stencil w) (C : Cfg V) (base : Nat → Nat) (A : Pair) (b : Box) (N : Nat) (Q1 Q : Reqs) : Prop where
  load1 : K.mode.loadReq Q1 ∣ w / 8
  store1 : ∃ al, K.mode.storeReq Q1 = some al ∧ al ∣ w / 8
  load : K.mode.loadReq Q ∣ N * (w / 8)
  src : ∀ j ∈ K.code.vars, Fine C w (base (if K.new j then A.idt else A.ids)) (if K.new j then A.et else A.es) (K.mode.loadReq Q) b (K.src j)
  store : ∃ al, K.mode.storeReq Q = some al ∧ al ∣ N * (w / 8) ∧ Fine C w (base A.idt) A.et al b K.dst

/-- The loop processes the cells from `x0` to `xe - 1`, vectors start at multiples of the arity. -/
def Runs (t : Peel.CTy) (N : Nat) (x0 x1 xe : Int) : Prop :=
  ∃ pc stop, Peel.peel t N x0 x1 = some (pc, stop) ∧ Peel.visits pc = Peel.iota x0 (xe - x0).toNat ∧
    ∀ c ∈ pc, (c.1 = 1 ∨ c.1 = N) ∧ (c.1 = N → (N : Int) ∣ c.2)

theorem runs_peeled {t : Peel.CTy} {N : Nat} {x0 x1 : Int} (h : Peeled N x0 x1 (Peel.peel t N x0 x1)) : Runs t N x0 x1 x1 := by
  obtain ⟨pc, hp, hv, hc, -⟩ := h
  exact ⟨pc, x1, hp, hv, hc⟩

theorem sweep_ok (hL : C.L.WF) (B : Bits w V) (base : Nat → Nat) (E : FEnv) {K : Stencil w} {A : Pair} {e1 e : Entry w} {F : FOps w}
    {Q1 Q : Reqs} {d f c : Bool} (H1 : Faithful e1.impl e1.cmp E F d f c) (H : Faithful e.impl e.cmp E F d f c)
    (T1 : Transfers e1.impl Q1 E) (T : Transfers e.impl Q E) (h1 : e1.impl.N = 1) (hN : 0 < e.impl.N) (hw : 0 < w / 8)
    (hk : K.code.only d f c = true) {s o : Nat} {b : Box} (hsafe : K.Safe s o) (t : Peel.CTy)
    {xe : Int} (hpeel : Runs t e.impl.N b.x0 b.x1 xe) (hA : K.Accesses C base A b e.impl.N Q1 Q)
    {W : World V} {a : AWorld V} (hR : R C W a) (hs : Has C W s A.es A.ids) (ho : Has C W o A.et A.idt)
    (hin : K.Inside B s o { b with x1 := xe } (InA C a) (valA dv a)) :
    ∃ h' a' vs os, sweep ⟨C.L, B, base, E⟩ K A t e1 e b b.rows W.h = some h' ∧ R C ⟨h', W.g⟩ a' ∧
      W.run C vs = .ok (⟨h', W.g⟩, os) ∧
      (∀ op ∈ vs, ∃ x y z v, Box.Has { b with x1 := xe } x y z ∧ op = .poke o x y z K.dst.X K.dst.Y K.dst.Z K.dst.r K.dst.k v) ∧
      (∀ l, InA C a' l ↔ InA C a l) ∧ ∀ l, InA C a l → valA dv a' l = K.apply B F s o { b with x1 := xe } (valA dv a) l := by
  obtain ⟨pc, stop, hp, hv, hc⟩ := hpeel
  rw [sweep_calls _ _ _ _ _ _ _ hp]
  have hcells : cells (boxCalls pc b.rows) = Box.cells { b with x1 := xe } := boxCalls_cells { b with x1 := xe } hv
  have key := calls_ok (dv := dv) hL B base E H1 H T1 T h1 hN hw hk (s := s) (o := o) (A := A)
    (valA dv a) (fun p j => (B.bits (valA dv a (K.srcLoc s o j p.1 p.2.1 p.2.2))).getD 0) (InA C a)
    (boxCalls pc b.rows) [] W a hR hs ho (fun _ => Iff.rfl)
  replace key := key (by
    intro c hc'
    simp only [boxCalls, List.mem_flatMap, List.mem_map] at hc'
    obtain ⟨r, -, q, hq, rfl⟩ := hc'
    exact (hc q hq).1)
  replace key := key (by
    intro c hc'
    simp only [boxCalls, List.mem_flatMap, List.mem_map] at hc'
    obtain ⟨r, hr, q, hq, rfl⟩ := hc'
    obtain ⟨al, j1, j2, j3⟩ := hA.store
    obtain ⟨al1, i1, i2⟩ := hA.store1
    by_cases hn : q.1 = e.impl.N
    · simp only [hn, if_true]
      exact ⟨fun j hj => (hA.src j hj).pointer hr ((hc q hq).2 hn) (Nat.dvd_refl _) hA.load,
        al, j1, j3.pointer hr ((hc q hq).2 hn) (Nat.dvd_refl _) j2⟩
    · simp only [hn, if_false]
      exact ⟨fun j hj => (hA.src j hj).pointer1 hA.load1, al1, i1, j3.pointer1 i2⟩)
  replace key := key (by
    intro p hp
    rw [hcells, Box.mem_cells] at hp
    exact (hin _ _ _ hp).1)
  replace key := key (by
    intro p hp j hj
    rw [hcells, Box.mem_cells] at hp
    obtain ⟨k1, k2⟩ := (hin _ _ _ hp).2 j hj
    refine ⟨k1, ?_⟩
    obtain ⟨v, hv⟩ := Option.isSome_iff_exists.1 k2
    simp only [hv, Option.getD_some])
  replace key := key (by
    rw [List.nil_append, hcells]
    exact hsafe.noHazard _)
  obtain ⟨h', a', vs, os, k1, k2, k3, k4, k5, k6, k7⟩ := key (fun _ h => by cases h) (fun _ _ _ => rfl)
  refine ⟨h', a', vs, os, k1, k2, k3, ?_, k5, ?_⟩
  · intro op hop
    obtain ⟨p, hp, v, rfl⟩ := k4 op hop
    rw [hcells, Box.mem_cells] at hp
    exact ⟨_, _, _, v, hp, rfl⟩
  · intro l hl
    rw [hcells] at k6 k7
    simp only [List.nil_append] at k6 k7
    unfold Stencil.apply
    split
    · rename_i hb
      have := k6 _ (Box.mem_cells (p := (l.x - K.dst.X, l.y - K.dst.Y, l.z - K.dst.Z)).2 hb.2.2.2)
      have el : K.dstLoc o (l.x - K.dst.X) (l.y - K.dst.Y) (l.z - K.dst.Z) = l := by
        obtain ⟨ls, lx, ly, lz, lr, lk⟩ := l
        simp only at hb
        simp only [Stencil.dstLoc, at', Loc.mk.injEq]
        omega
      simp only [el] at this
      exact this
    · rename_i hb
      refine k7 l hl fun p hp he => hb ?_
      rw [Box.mem_cells] at hp
      subst he
      refine ⟨rfl, rfl, rfl, ?_⟩
      simpa [Stencil.dstLoc, at'] using hp

/-! ### Two grids -/

theorem valueIs_unique {W : World V} {l : Loc} {v v' : V} (h : ValueIs C W l v) (h' : ValueIs C W l v') : v = v' := by
  unfold ValueIs at h h'
  rw [h] at h'
  simpa using h'

theorem valA_valueIs (hL : C.L.WF) {W : World V} {a : AWorld V} (hR : R C W a) {l : Loc} (hl : InA C a l) :
    ValueIs C W l (valA dv a l) := by
  have := peek_step (dv := dv) hL hR (p := ⟨l.s, l.x, l.y, l.z, 0, 0, 0, l.r, l.k⟩) (by simpa [Ref.loc] using hl)
  simpa [ValueIs, Ref.loc] using this

/-- The call returns normally; afterwards grids have the dimensions which they had before, all objects have the values `σ'`, and the program
    may continue. -/
def Yields (C : Cfg V) (dv : V) (W : World V) (σ' : Loc → V) (r : Except UB (World V × Out V)) : Prop :=
  ∃ W', r = .ok (W', .unit) ∧ Valid C dv W' ∧ (∀ s d, DimsAre C W' s d ↔ DimsAre C W s d) ∧ ∀ l, InGrid C W l → ValueIs C W' l (σ' l)

theorem pokes_valid (hL : C.L.WF) {o : Nat} {X Y Z : Int} {r k : Nat} (vs : List (Op V)) {W W' : World V} {os : List (Out V)}
    (hV : Valid C dv W) {a : AWorld V} (hR : R C W a) (hrun : W.run C vs = .ok (W', os))
    (h : ∀ op ∈ vs, ∃ x y z v, InA C a ⟨o, x + X, y + Y, z + Z, r, k⟩ ∧ op = .poke o x y z X Y Z r k v) : Valid C dv W' := by
  induction vs generalizing W a os with
  | nil => simp only [World.run, Except.ok.injEq, Prod.mk.injEq] at hrun; obtain ⟨rfl, -⟩ := hrun; exact hV
  | cons op vs ih =>
    obtain ⟨x, y, z, v, hin, rfl⟩ := h op (by simp)
    obtain ⟨W1, a1, k1, k2, k3, -⟩ := poke_step (dv := dv) hL hR (p := ⟨o, x, y, z, X, Y, Z, r, k⟩) hin v
    simp only at k1
    simp only [World.run, k1] at hrun
    cases h2 : W1.run C vs with
    | error u => rw [h2] at hrun; cases hrun
    | ok q =>
      obtain ⟨W2, os2⟩ := q
      rw [h2] at hrun
      simp only [Except.ok.injEq, Prod.mk.injEq] at hrun
      obtain ⟨rfl, -⟩ := hrun
      refine ih (hV.next hL hR (fun s => by simp) ?_ k1) k2 h2 fun op hop => ?_
      · obtain ⟨g, m, j1, j2⟩ := hin
        exact ⟨g, m, j1, j2⟩
      · obtain ⟨x', y', z', v', j1, j2⟩ := h op (by simp [hop])
        exact ⟨x', y', z', v', (k3 _).2 j1, j2⟩

theorem apply_congr {K : Stencil w} {B : Bits w V} {F : FOps w} {s o : Nat} {b : Box} {dom : Loc → Prop} {σ σ' : Loc → V}
    (hin : K.Inside B s o b dom σ) (h : ∀ l, dom l → σ l = σ' l) (l : Loc) (hl : dom l) :
    K.apply B F s o b σ l = K.apply B F s o b σ' l := by
  unfold Stencil.apply
  split
  · rename_i hb
    unfold Stencil.result
    congr 1
    refine SV.Expr.scalar_congr F K.code ?_
    intro j hj
    rw [h _ ((hin _ _ _ hb.2.2.2).2 j hj).1]
  · exact h l hl

/-- Grid variable `s` holds a grid with dimensions `d` and extents `e`. -/
theorem has_of_dims {W : World V} {a : AWorld V} (hR : R C W a) {s : Nat} {d : Ext} (hd : DimsAre C W s d) (hne : d ≠ ⟨0, 0, 0⟩) {e : Ext}
    (he : selectSizes C.tr d = .ok e) : ∃ id g, W.g s = some g ∧ g.dim = d ∧ g.data = some id ∧ Has C W s e id := by
  obtain ⟨ag, h1, h2⟩ := hR.of_dims hd hne
  obtain ⟨g, h3, h4, e', id, b, h5, h6, -⟩ := hR.grid h1
  have : g.dim = d := h4.trans h2
  refine ⟨id, g, h3, this, h6, g, h3, ?_, h6⟩
  rw [this]; exact he

theorem dimsAre_same {W W' : World V} (h : W'.g = W.g) (s : Nat) (d : Ext) : DimsAre C W' s d ↔ DimsAre C W s d := by
  unfold DimsAre
  simp only [World.step, World.withG, h]
  cases W.g s with
  | none => simp
  | some g => simp

theorem update_ok (hL : C.L.WF) (B : Bits w V) (base : Nat → Nat) (E : FEnv) {K : Stencil w} {e1 e : Entry w} {F : FOps w}
    {Q1 Q : Reqs} {d f c : Bool} (H1 : Faithful e1.impl e1.cmp E F d f c) (H : Faithful e.impl e.cmp E F d f c)
    (T1 : Transfers e1.impl Q1 E) (T : Transfers e.impl Q E) (h1 : e1.impl.N = 1) (hN : 0 < e.impl.N) (hw : 0 < w / 8)
    (hk : K.code.only d f c = true) {s o : Nat} {b : Box} (hsafe : K.Safe s o) (t : Peel.CTy)
    {xe : Int} (hpeel : Runs t e.impl.N b.x0 b.x1 xe) {ds dt es et : Ext} (hes : selectSizes C.tr ds = .ok es)
    (het : selectSizes C.tr dt = .ok et) (hsym : C.asym = true ∨ ds = dt)
    (hA : ∀ ids idt, K.Accesses C base ⟨es, et, ids, idt⟩ b e.impl.N Q1 Q)
    {W : World V} (hV : Valid C dv W) (hds : DimsAre C W s ds) (hdt : DimsAre C W o dt) (hns : ds ≠ ⟨0, 0, 0⟩) (hnt : dt ≠ ⟨0, 0, 0⟩)
    {σ : Loc → V} (hσ : ∀ l, InGrid C W l → ValueIs C W l (σ l)) (hin : K.Inside B s o { b with x1 := xe } (InGrid C W) σ) :
    Yields C dv W (K.apply B F s o { b with x1 := xe } σ) (update C B base E K t e1 e b W s o) := by
  obtain ⟨a, hR⟩ := hV.refines hL
  obtain ⟨ids, gs, i1, i2, i3, i4⟩ := has_of_dims hR hds hns hes
  obtain ⟨idt, gt, j1, j2, j3, j4⟩ := has_of_dims hR hdt hnt het
  have hva : ∀ l, InA C a l → valA dv a l = σ l := fun l hl =>
    valueIs_unique (valA_valueIs hL hR hl) (hσ l ((inA_iff hR l).1 hl))
  have hin' : K.Inside B s o { b with x1 := xe } (InA C a) (valA dv a) := fun x y z hb => by
    obtain ⟨k1, k2⟩ := hin x y z hb
    refine ⟨(inA_iff hR _).2 k1, fun j hj => ?_⟩
    have := (inA_iff hR _).2 (k2 j hj).1
    exact ⟨this, by rw [hva _ this]; exact (k2 j hj).2⟩
  obtain ⟨h', a', vs, os, k1, k2, k3, k4, k5, k6⟩ := sweep_ok (dv := dv) hL B base E H1 H T1 T h1 hN hw hk hsafe t hpeel (hA ids idt) hR i4 j4 hin'
  refine ⟨⟨h', W.g⟩, ?_, ?_, dimsAre_same rfl, ?_⟩
  · simp only [update, World.withG, i1, j1, Grid.dualCallback, i2, j2, hes, het, i3, j3, Option.getD_some, k1]
    by_cases ha : C.asym = true
    · rw [if_pos ha]; rfl
    · rw [if_neg ha]
      have : ds = dt := hsym.resolve_left ha
      subst this
      rw [hes] at het; cases het
      simp only [ne_eq, not_true_eq_false, or_self, if_false, k1]
      rfl
  · refine pokes_valid hL (o := o) (X := K.dst.X) (Y := K.dst.Y) (Z := K.dst.Z) (r := K.dst.r) (k := K.dst.k) vs hV hR k3 fun op hop => ?_
    obtain ⟨x, y, z, v, hb, rfl⟩ := k4 op hop
    exact ⟨x, y, z, v, (hin' x y z hb).1, rfl⟩
  · intro l hl
    have hl' := (inA_iff hR l).2 hl
    have := valA_valueIs (dv := dv) hL k2 ((k5 l).2 hl')
    rw [k6 l hl', apply_congr hin' hva l hl'] at this
    exact this

/-! ### Default sizes -/

theorem dflt_prod {d e : Ext} (h : selectSizes .dflt d = .ok e) : 32 ∣ e.x * e.y * e.z ∧ (if 1 < d.y then 512 else 32) ∣ e.x * e.y * e.z := by
  have m1 : ∀ s ∈ sizes1D, 32 ∣ s * 1 * 1 := by decide
  have m2 : ∀ s ∈ sizes2D, 512 ∣ s * s * 1 := by decide
  have m3 : ∀ s ∈ sizes3D, 512 ∣ s * s * s := by decide
  have h32 : ∀ n, 512 ∣ n → 32 ∣ n := fun n => Nat.dvd_trans (by decide)
  have h512 : ∀ n, 512 ∣ n → (if 1 < d.y then 512 else 32) ∣ n := by
    intro n hn; split
    · exact hn
    · exact h32 n hn
  rcases Mach.default_ext h with ⟨s, hs, rfl⟩ | ⟨s, hs, rfl⟩ | ⟨s, hs, rfl⟩
  · have := (selectSizes_fits h).2.1
    simp only at this
    rw [if_neg (by omega)]
    exact ⟨m1 s hs, m1 s hs⟩
  · exact ⟨h32 _ (m2 s hs), h512 _ (m2 s hs)⟩
  · exact ⟨h32 _ (m3 s hs), h512 _ (m3 s hs)⟩

/-- When a member may be accessed in units of `al` bytes by vectors with `N` elements: there are no demands, or rows consist of whole
    vectors and the offset within the row is a multiple of the arity. -/
def Fits (d e : Ext) (size al N : Nat) (p : Pos) : Prop :=
  al = 1 ∨ al ∣ N * size ∧ N * size ∣ (if 1 < d.y then 512 else 32) ∧ N ∣ e.x ∧ (N : Int) ∣ p.X

theorem Fits.fine (htr : C.tr = .dflt) {d e : Ext} (hd : selectSizes C.tr d = .ok e) {base : Nat} (hbase : 4096 ∣ base) {p : Pos}
    {m : Member V} (hm : C.L[p.r]? = some m) (hsz : m.ty.size = w / 8) (h32 : w / 8 ∣ 32) {al N : Nat} (h : Fits d e (w / 8) al N p)
    (b : Box) : Fine C w base e al b p := by
  rw [htr] at hd
  obtain ⟨hp1, hp2⟩ := dflt_prod hd
  refine ⟨m, hm, hsz, Nat.dvd_trans (Nat.dvd_trans h32 (by decide)) hbase, Dvd.dvd.mul_right (Nat.dvd_trans h32 hp1) _, ?_⟩
  intro y z _ _ _ _
  rcases h with rfl | ⟨h1, h2, h3, h4⟩
  · exact ⟨_, (Int.one_mul _).symm⟩
  · obtain ⟨n, hn, hn'⟩ := addr_form C.L base e 0 y z p m
    have hv : N * (w / 8) ∣ base := Nat.dvd_trans h2 (Nat.dvd_trans (by split <;> decide) hbase)
    have := hn' N (Int.natCast_dvd_natCast.2 h3) (by rw [Int.zero_add]; exact h4)
    refine Int.dvd_trans (Int.natCast_dvd_natCast.2 h1) ?_
    rw [hn, hsz]
    refine Int.dvd_add (Int.dvd_add (Int.natCast_dvd_natCast.2 hv) (Int.natCast_dvd_natCast.2 (Dvd.dvd.mul_right (Nat.dvd_trans h2 hp2) _))) ?_
    push_cast
    exact Int.mul_dvd_mul this (Int.dvd_refl _)

/-! ### Time steps -/

theorem dimsAre_shape {W : World V} {a : AWorld V} (hR : R C W a) (s : Nat) (d : Ext) :
    DimsAre C W s d ↔ (a s).shape = some (some d) ∨ (a s).shape = some none ∧ d = ⟨0, 0, 0⟩ := by
  have hs := hR.slots s
  unfold DimsAre
  cases has : a s with
  | absent => rw [has] at hs; simp only [SlotOK] at hs; simp [World.step, World.withG, hs, ASlot.shape]
  | blank =>
    rw [has] at hs
    obtain ⟨g, h1, h2, -⟩ := hs
    simp only [World.step, World.withG, h1, h2, ASlot.shape]
    simp [eq_comm]
  | grid g =>
    rw [has] at hs
    obtain ⟨g', h1, h2, -⟩ := hs
    simp only [World.step, World.withG, h1, h2, ASlot.shape]
    simp

/-- The values after `swap(s, o)`. -/
def exchange (s o : Nat) (σ : Loc → V) : Loc → V := fun l => σ { l with s := if l.s = s then o else if l.s = o then s else l.s }

theorem swap_ok (hL : C.L.WF) {W : World V} (hV : Valid C dv W) {s o : Nat} (hso : s ≠ o) {d : Ext} (hs : DimsAre C W s d)
    (ho : DimsAre C W o d) (hd : d ≠ ⟨0, 0, 0⟩) {σ : Loc → V} (hσ : ∀ l, InGrid C W l → ValueIs C W l (σ l)) :
    Yields C dv W (exchange s o σ) (W.step C (.swap s o)) := by
  obtain ⟨a, hR⟩ := hV.refines hL
  obtain ⟨g, h1, h2⟩ := hR.of_dims hs hd
  obtain ⟨g', h1', h2'⟩ := hR.of_dims ho hd
  have hpre : Spec.Pre C a (.swap s o) := ⟨g, g', h1, h1', by rw [h2, h2'], by rw [h2, h2']⟩
  obtain ⟨W', out, a', k1, k2, k3⟩ := step_refines hL dv hR (.swap s o) hpre
  cases k2 with
  | swap _ _ i i' j j' =>
    rw [h1] at j; cases j
    rw [h1'] at j'; cases j'
    have hos : o ≠ s := Ne.symm hso
    have hsh : ∀ t, (World.upd (World.upd a s (.grid { g' with ext := Spec.swapExt g.ext g'.ext })) o
        (.grid { g with ext := Spec.swapExt g'.ext g.ext }) t).shape = (a t).shape := by
      intro t
      by_cases ht : t = o
      · subst ht; rw [upd_self, h1']; simp only [ASlot.shape]; rw [h2, h2']
      · rw [upd_ne _ _ ht]
        by_cases ht' : t = s
        · subst ht'; rw [upd_self, h1]; simp only [ASlot.shape]; rw [h2, h2']
        · rw [upd_ne _ _ ht']
    have hdims : ∀ t d, DimsAre C W' t d ↔ DimsAre C W t d := by
      intro t d
      rw [dimsAre_shape k3, dimsAre_shape hR, hsh t]
    refine ⟨W', k1, hV.next hL hR (fun _ => by simp) hpre k1, hdims, fun l hl => ?_⟩
    have hl' : InGrid C W' l := by
      obtain ⟨dl, m, i1, i2⟩ := hl
      exact ⟨dl, m, (hdims _ _).2 i1, i2⟩
    have hv := valA_valueIs (dv := dv) hL k3 ((inA_iff k3 l).2 hl')
    -- the location before
    have hpre' : InGrid C W { l with s := if l.s = s then o else if l.s = o then s else l.s } := by
      obtain ⟨dl, m, i1, i2⟩ := hl
      refine ⟨dl, m, ?_, i2⟩
      have uniq : ∀ t d1 d2, DimsAre C W t d1 → DimsAre C W t d2 → d1 = d2 := by
        intro t d1 d2 q1 q2
        unfold DimsAre at q1 q2
        rw [q1] at q2
        simpa using q2
      by_cases e1 : l.s = s
      · simp only [e1, if_true]
        rw [e1] at i1
        rw [uniq _ _ _ i1 hs]; exact ho
      · simp only [e1, if_false]
        by_cases e2 : l.s = o
        · simp only [e2, if_true]
          rw [e2] at i1
          rw [uniq _ _ _ i1 ho]; exact hs
        · simp only [e2, if_false]; exact i1
    have hold := valueIs_unique (valA_valueIs (dv := dv) hL hR ((inA_iff hR _).2 hpre')) (hσ _ hpre')
    have : exchange s o σ l = valA dv (World.upd (World.upd a s (.grid { g' with ext := Spec.swapExt g.ext g'.ext })) o
        (.grid { g with ext := Spec.swapExt g'.ext g.ext })) l := by
      unfold exchange
      rw [← hold]
      unfold valA
      simp only
      by_cases e2 : l.s = o
      · rw [e2, upd_self, if_neg hos, if_pos rfl, h1]
      · rw [upd_ne _ _ e2]
        by_cases e1 : l.s = s
        · rw [e1, upd_self, if_pos rfl, h1']
        · rw [upd_ne _ _ e1, if_neg e1, if_neg e2]
    rw [this]; exact hv

/-- Cells of the box and what is read for them are inside. -/
def Stencil.Reach (K : Stencil w) (s o : Nat) (b : Box) (dom : Loc → Prop) : Prop :=
  ∀ x y z, b.Has x y z → dom (K.dstLoc o x y z) ∧ ∀ j ∈ K.code.vars, dom (K.srcLoc s o j x y z)

/-- The members which the functor reads are numbers, in both grids. -/
def Stencil.Numbers (K : Stencil w) (B : Bits w V) (s o : Nat) (dom : Loc → Prop) (σ : Loc → V) : Prop :=
  ∀ l, dom l → (l.s = s ∨ l.s = o) → (∃ j ∈ K.code.vars, l.r = (K.src j).r) → (B.bits (σ l)).isSome = true

theorem Stencil.Reach.inside {K : Stencil w} {B : Bits w V} {s o : Nat} {b : Box} {dom : Loc → Prop} {σ : Loc → V} (h : K.Reach s o b dom)
    (hn : K.Numbers B s o dom σ) : K.Inside B s o b dom σ := by
  intro x y z hb
  obtain ⟨h1, h2⟩ := h x y z hb
  refine ⟨h1, fun j hj => ⟨h2 j hj, hn _ (h2 j hj) ?_ ⟨j, hj, rfl⟩⟩⟩
  simp only [Stencil.srcLoc, at', Stencil.slot]
  split
  · exact .inr rfl
  · exact .inl rfl

theorem Stencil.Numbers.apply {K : Stencil w} {B : Bits w V} {F : FOps w} {s o : Nat} {b : Box} {dom : Loc → Prop} {σ : Loc → V}
    (hn : K.Numbers B s o dom σ) : K.Numbers B s o dom (K.apply B F s o b σ) := by
  intro l h1 h2 h3
  unfold Stencil.apply
  split
  · unfold Stencil.result; rw [B.bits_val]; rfl
  · exact hn l h1 h2 h3

theorem steps_ok (hL : C.L.WF) (B : Bits w V) (base : Nat → Nat) (E : FEnv) (K : Stencil w) (e1 e : Entry w) (F : FOps w) {s o : Nat}
    (hso : s ≠ o) (b : Box) (t : Peel.CTy) {d : Ext} (hd : d ≠ ⟨0, 0, 0⟩)
    (hstep : ∀ (W : World V) (σ : Loc → V), Valid C dv W → DimsAre C W s d → DimsAre C W o d → (∀ l, InGrid C W l → ValueIs C W l (σ l)) →
      K.Inside B s o b (InGrid C W) σ → Yields C dv W (K.apply B F s o b σ) (update C B base E K t e1 e b W s o)) (n : Nat) :
    ∀ (W : World V) (σ : Loc → V), Valid C dv W → DimsAre C W s d → DimsAre C W o d → (∀ l, InGrid C W l → ValueIs C W l (σ l)) →
      K.Reach s o b (InGrid C W) → K.Numbers B s o (InGrid C W) σ →
      Yields C dv W ((fun σ => exchange s o (K.apply B F s o b σ))^[n] σ) (timeSteps C B base E K t e1 e b s o n W) := by
  induction n with
  | zero => intro W σ hV hs ho hσ _ _; exact ⟨W, rfl, hV, fun _ _ => Iff.rfl, hσ⟩
  | succ n ih =>
    intro W σ hV hs ho hσ hre hn
    obtain ⟨W1, k1, k2, k3, k4⟩ := hstep W σ hV hs ho hσ (hre.inside hn)
    have hg : ∀ {W W' : World V}, (∀ s d, DimsAre C W' s d ↔ DimsAre C W s d) → ∀ l, InGrid C W' l ↔ InGrid C W l := by
      intro W W' h l
      unfold InGrid
      simp only [h]
    have g1 := hg k3
    obtain ⟨W2, j1, j2, j3, j4⟩ := swap_ok (dv := dv) hL k2 hso ((k3 _ _).2 hs) ((k3 _ _).2 ho) hd (σ := K.apply B F s o b σ)
      fun l hl => k4 l ((g1 l).1 hl)
    have g2 : ∀ l, InGrid C W2 l ↔ InGrid C W l := fun l => (hg j3 l).trans (g1 l)
    have d2 : ∀ s d, DimsAre C W2 s d ↔ DimsAre C W s d := fun s d => (j3 s d).trans (k3 s d)
    obtain ⟨W3, i1, i2, i3, i4⟩ := ih W2 (exchange s o (K.apply B F s o b σ)) j2 ((d2 _ _).2 hs) ((d2 _ _).2 ho)
      (fun l hl => j4 l ((hg j3 l).1 hl))
      (fun x y z hb => ⟨(g2 _).2 (hre x y z hb).1, fun j hj => (g2 _).2 ((hre x y z hb).2 j hj)⟩) (by
        intro l hl h2 h3
        unfold exchange
        refine hn.apply _ ?_ ?_ h3
        · obtain ⟨dl, m, q1, q2⟩ := (g2 l).1 hl
          have uniq : ∀ t d1 d2, DimsAre C W t d1 → DimsAre C W t d2 → d1 = d2 := by
            intro t d1 d2 q1 q2
            unfold DimsAre at q1 q2
            rw [q1] at q2
            simpa using q2
          refine ⟨dl, m, ?_, q2⟩
          rcases h2 with h2 | h2
          · simp only [h2, if_true]
            rw [h2] at q1
            rw [uniq _ _ _ q1 hs]; exact ho
          · have : ¬ o = s := Ne.symm hso
            simp only [h2, this, if_false, if_true]
            rw [h2] at q1
            rw [uniq _ _ _ q1 ho]; exact hs
        · rcases h2 with h2 | h2
          · simp [h2]
          · have : ¬ o = s := Ne.symm hso
            simp [h2, this])
    refine ⟨W3, ?_, i2, fun s d => (i3 s d).trans (d2 s d), fun l hl => ?_⟩
    · simp only [timeSteps, k1, j1]; exact i1
    · rw [Function.iterate_succ_apply]
      exact i4 l ((g2 l).2 hl)

/-! ### C62 -/

/-- The member is registered and has `n` bytes. -/
def MemberSize (C : Cfg V) (r n : Nat) : Prop := ∃ m, C.L[r]? = some m ∧ m.ty.size = n

/-- All accesses of a functor meet the demands of the instructions, in grids with default sizes. `n` is the size of the vector's elements. -/
structure Stencil.Aligned (K : Stencil w) (C : Cfg V) (n : Nat) (ds dt es et : Ext) (N : Nat) (Q : Reqs) : Prop where
  srcs : ∀ j ∈ K.code.vars, MemberSize C (K.src j).r n
  src : ∀ j ∈ K.code.vars, Fits (if K.new j then dt else ds) (if K.new j then et else es) n (K.mode.loadReq Q) N (K.src j)
  dsts : MemberSize C K.dst.r n
  dst : ∃ al, K.mode.storeReq Q = some al ∧ Fits dt et n al N K.dst

theorem Stencil.Aligned.accesses {K : Stencil w} (htr : C.tr = .dflt) (h32 : w / 8 ∣ 32) {ds dt es et : Ext}
    (hes : selectSizes C.tr ds = .ok es) (het : selectSizes C.tr dt = .ok et) {N : Nat} {Q1 Q : Reqs}
    (h : K.Aligned C (w / 8) ds dt es et N Q) (hQ1 : K.mode.loadReq Q1 = 1) (hQ1' : K.mode.storeReq Q1 = some 1)
    (hQ : K.mode.loadReq Q ∣ N * (w / 8)) {base : Nat → Nat} (hbase : ∀ id, 4096 ∣ base id) (b : Box) (ids idt : Nat) :
    K.Accesses C base ⟨es, et, ids, idt⟩ b N Q1 Q where
  load1 := by rw [hQ1]; exact Nat.one_dvd _
  store1 := ⟨1, hQ1', Nat.one_dvd _⟩
  load := hQ
  src := fun j hj => by
    obtain ⟨m, h1, h2⟩ := h.srcs j hj
    have h3 := h.src j hj
    by_cases hn : K.new j = true
    · simp only [hn, if_true] at h3 ⊢
      exact h3.fine htr het (hbase _) h1 h2 h32 b
    · simp only [hn] at h3 ⊢
      exact h3.fine htr hes (hbase _) h1 h2 h32 b
  store := by
    obtain ⟨m, h1, h2⟩ := h.dsts
    obtain ⟨al, h3, h4⟩ := h.dst
    refine ⟨al, h3, ?_, h4.fine htr het (hbase _) h1 h2 h32 b⟩
    rcases h4 with rfl | h4
    · exact Nat.one_dvd _
    · exact h4.1

theorem float_update (hL : C.L.WF) (htr : C.tr = .dflt) (c : SV.Cfg) (e1 e : Entry 32) (he1 : e1 ∈ SV.floatVecs c) (h1 : e1.impl.N = 1)
    (he : e ∈ SV.floatVecs c) (E : FEnv) (B : Bits 32 V) (base : Nat → Nat) (hbase : ∀ id, 4096 ∣ base id) (K : Stencil 32)
    (hk : K.code.only (SV.exactDiv c e.impl.N) (!SV.usesNeon c e.impl.N) (SV.hasFloatCmp c e.impl.N) = true) (s o : Nat) (hsafe : K.Safe s o)
    (ds dt es et : Ext) (hes : selectSizes C.tr ds = .ok es) (het : selectSizes C.tr dt = .ok et) (hsym : C.asym = true ∨ ds = dt)
    (hal : K.Aligned C 4 ds dt es et e.impl.N (SV.floatReqs c e.impl.N))
    (t : Peel.CTy) (b : Box) (xe : Int) (hruns : Runs t e.impl.N b.x0 b.x1 xe)
    (W : World V) (hV : Valid C dv W) (hds : DimsAre C W s ds) (hdt : DimsAre C W o dt) (hns : ds ≠ ⟨0, 0, 0⟩) (hnt : dt ≠ ⟨0, 0, 0⟩)
    (σ : Loc → V) (hσ : ∀ l, InGrid C W l → ValueIs C W l (σ l)) (hin : K.Inside B s o { b with x1 := xe } (InGrid C W) σ) :
    Yields C dv W (K.apply B E.f32 s o { b with x1 := xe } σ) (update C B base E K t e1 e b W s o) := by
  have hN := SV.float_arity c e he
  have hpos : 0 < e.impl.N := by
    have : ∀ n ∈ [1, 2, 4, 8, 16, 32], 0 < n := by decide
    exact this _ hN
  have H := SV.float_faithful c e he E
  rw [SV.C45_float_available c e he] at H
  have H1 := SV.float_faithful c e1 he1 E
  rw [SV.C45_float_available c e1 he1] at H1
  refine update_ok hL B base E (H1.weaken ?_ ?_ ?_) H (SV.C46_float_partial c e1 he1 E) (SV.C46_float_partial c e he E) h1 hpos (by decide) hk hsafe t
    hruns hes het hsym
    (fun ids idt => hal.accesses htr (by decide) hes het ?_ ?_ ?_ hbase b ids idt) hV hds hdt hns hnt hσ hin
  · rw [h1]; intro _; rfl
  · rw [h1]; intro _; simp only [SV.usesNeon]; rfl
  · rw [h1]; intro _; cases c <;> rfl
  · rw [h1]; cases K.mode <;> rfl
  · rw [h1]; cases K.mode <;> rfl
  · have : ∀ M : Mode, ∀ n ∈ [1, 2, 4, 8, 16, 32], M.loadReq (SV.floatReqs c n) ∣ n * 4 := by intro M; cases c <;> cases M <;> decide
    exact this _ _ hN

/-- C62 for `float`: a functor which updates a member with vectors of any arity, on any target, run by the two-grid `callback` of grids with
    default sizes, computes in each cell of the box what the scalar code computes from the values before the call, and changes nothing
    else. Missing: ranges along x which do not contain a multiple of the arity (C62_false), divisions where the target has approximate
    ones only (C56_false_div). -/
theorem C62_float_partial (hL : C.L.WF) (htr : C.tr = .dflt) (c : SV.Cfg) (e1 e : Entry 32) (he1 : e1 ∈ SV.floatVecs c) (h1 : e1.impl.N = 1)
    (he : e ∈ SV.floatVecs c) (E : FEnv) (B : Bits 32 V) (base : Nat → Nat) (hbase : ∀ id, 4096 ∣ base id) (K : Stencil 32)
    (hk : K.code.only (SV.exactDiv c e.impl.N) (!SV.usesNeon c e.impl.N) (SV.hasFloatCmp c e.impl.N) = true) (s o : Nat) (hsafe : K.Safe s o)
    (ds dt es et : Ext) (hes : selectSizes C.tr ds = .ok es) (het : selectSizes C.tr dt = .ok et) (hsym : C.asym = true ∨ ds = dt)
    (hal : K.Aligned C 4 ds dt es et e.impl.N (SV.floatReqs c e.impl.N))
    (t : Peel.CTy) (ht : (e.impl.N : Int) ∣ t.hi) (b : Box) (hx : 0 ≤ b.x0) (hstop : b.x1 < t.hi)
    (q : Int) (hq : b.x0 ≤ e.impl.N * q) (hq' : e.impl.N * q ≤ b.x1)
    (W : World V) (hV : Valid C dv W) (hds : DimsAre C W s ds) (hdt : DimsAre C W o dt) (hns : ds ≠ ⟨0, 0, 0⟩) (hnt : dt ≠ ⟨0, 0, 0⟩)
    (σ : Loc → V) (hσ : ∀ l, InGrid C W l → ValueIs C W l (σ l)) (hin : K.Inside B s o b (InGrid C W) σ) :
    Yields C dv W (K.apply B E.f32 s o b σ) (update C B base E K t e1 e b W s o) := by
  have hpos : 0 < e.impl.N := by
    have : ∀ n ∈ [1, 2, 4, 8, 16, 32], 0 < n := by decide
    exact this _ (SV.float_arity c e he)
  exact float_update hL htr c e1 e he1 h1 he E B base hbase K hk s o hsafe ds dt es et hes het hsym hal t b b.x1
    (runs_peeled (C37_partial t e.impl.N hpos ht b.x0 b.x1 hx hstop q hq hq')) W hV hds hdt hns hnt σ hσ hin

theorem double_update (hL : C.L.WF) (htr : C.tr = .dflt) (c : SV.Cfg) (e1 e : Entry 64) (he1 : e1 ∈ SV.doubleVecs c) (h1 : e1.impl.N = 1)
    (he : e ∈ SV.doubleVecs c) (E : FEnv) (B : Bits 64 V) (base : Nat → Nat) (hbase : ∀ id, 4096 ∣ base id) (K : Stencil 64)
    (hk : K.code.only (!decide (c = .qpx ∧ 2 < e.impl.N)) (!decide (c = .qpx ∧ 2 < e.impl.N)) (SV.hasDoubleCmp c e.impl.N) = true)
    (s o : Nat) (hsafe : K.Safe s o)
    (ds dt es et : Ext) (hes : selectSizes C.tr ds = .ok es) (het : selectSizes C.tr dt = .ok et) (hsym : C.asym = true ∨ ds = dt)
    (hal : K.Aligned C 8 ds dt es et e.impl.N (SV.doubleReqs c e.impl.N))
    (t : Peel.CTy) (b : Box) (xe : Int) (hruns : Runs t e.impl.N b.x0 b.x1 xe)
    (W : World V) (hV : Valid C dv W) (hds : DimsAre C W s ds) (hdt : DimsAre C W o dt) (hns : ds ≠ ⟨0, 0, 0⟩) (hnt : dt ≠ ⟨0, 0, 0⟩)
    (σ : Loc → V) (hσ : ∀ l, InGrid C W l → ValueIs C W l (σ l)) (hin : K.Inside B s o { b with x1 := xe } (InGrid C W) σ) :
    Yields C dv W (K.apply B E.f64 s o { b with x1 := xe } σ) (update C B base E K t e1 e b W s o) := by
  have hN := SV.double_arity c e he
  have hpos : 0 < e.impl.N := by
    have : ∀ n ∈ [1, 2, 4, 8, 16, 32], 0 < n := by decide
    exact this _ hN
  have H := SV.double_faithful c e he E
  rw [SV.C45_double_available c e he] at H
  have H1 := SV.double_faithful c e1 he1 E
  rw [SV.C45_double_available c e1 he1] at H1
  refine update_ok hL B base E (H1.weaken ?_ ?_ ?_) H (SV.C46_double_partial c e1 he1 E) (SV.C46_double_partial c e he E) h1 hpos (by decide) hk hsafe t
    hruns hes het hsym
    (fun ids idt => hal.accesses htr (by decide) hes het ?_ ?_ ?_ hbase b ids idt) hV hds hdt hns hnt hσ hin
  · rw [h1]; intro _; simp
  · rw [h1]; intro _; simp
  · rw [h1]; intro _; cases c <;> rfl
  · rw [h1]; cases c <;> cases K.mode <;> rfl
  · rw [h1]; cases c <;> cases K.mode <;> rfl
  · have : ∀ M : Mode, ∀ n ∈ [1, 2, 4, 8, 16, 32], M.loadReq (SV.doubleReqs c n) ∣ n * 8 := by intro M; cases c <;> cases M <;> decide
    exact this _ _ hN

/-- C62 for `double`. On QPX, addresses have to be aligned even for ordinary accesses. -/
theorem C62_double_partial (hL : C.L.WF) (htr : C.tr = .dflt) (c : SV.Cfg) (e1 e : Entry 64) (he1 : e1 ∈ SV.doubleVecs c) (h1 : e1.impl.N = 1)
    (he : e ∈ SV.doubleVecs c) (E : FEnv) (B : Bits 64 V) (base : Nat → Nat) (hbase : ∀ id, 4096 ∣ base id) (K : Stencil 64)
    (hk : K.code.only (!decide (c = .qpx ∧ 2 < e.impl.N)) (!decide (c = .qpx ∧ 2 < e.impl.N)) (SV.hasDoubleCmp c e.impl.N) = true)
    (s o : Nat) (hsafe : K.Safe s o)
    (ds dt es et : Ext) (hes : selectSizes C.tr ds = .ok es) (het : selectSizes C.tr dt = .ok et) (hsym : C.asym = true ∨ ds = dt)
    (hal : K.Aligned C 8 ds dt es et e.impl.N (SV.doubleReqs c e.impl.N))
    (t : Peel.CTy) (ht : (e.impl.N : Int) ∣ t.hi) (b : Box) (hx : 0 ≤ b.x0) (hstop : b.x1 < t.hi)
    (q : Int) (hq : b.x0 ≤ e.impl.N * q) (hq' : e.impl.N * q ≤ b.x1)
    (W : World V) (hV : Valid C dv W) (hds : DimsAre C W s ds) (hdt : DimsAre C W o dt) (hns : ds ≠ ⟨0, 0, 0⟩) (hnt : dt ≠ ⟨0, 0, 0⟩)
    (σ : Loc → V) (hσ : ∀ l, InGrid C W l → ValueIs C W l (σ l)) (hin : K.Inside B s o b (InGrid C W) σ) :
    Yields C dv W (K.apply B E.f64 s o b σ) (update C B base E K t e1 e b W s o) := by
  have hpos : 0 < e.impl.N := by
    have : ∀ n ∈ [1, 2, 4, 8, 16, 32], 0 < n := by decide
    exact this _ (SV.double_arity c e he)
  exact double_update hL htr c e1 e he1 h1 he E B base hbase K hk s o hsafe ds dt es et hes het hsym hal t b b.x1
    (runs_peeled (C37_partial t e.impl.N hpos ht b.x0 b.x1 hx hstop q hq hq')) W hV hds hdt hns hnt σ hσ hin

/-- C62 is false for ranges along x which do not contain a multiple of the arity: the functor processes the cells up to the next multiple,
    so the cell at the end of the range is overwritten. -/
theorem C62_false (hL : C.L.WF) (htr : C.tr = .dflt) (c : SV.Cfg) (e1 e : Entry 32) (he1 : e1 ∈ SV.floatVecs c) (h1 : e1.impl.N = 1)
    (he : e ∈ SV.floatVecs c) (E : FEnv) (B : Bits 32 V) (base : Nat → Nat) (hbase : ∀ id, 4096 ∣ base id) (K : Stencil 32)
    (hk : K.code.only (SV.exactDiv c e.impl.N) (!SV.usesNeon c e.impl.N) (SV.hasFloatCmp c e.impl.N) = true) (s o : Nat) (hsafe : K.Safe s o)
    (ds dt es et : Ext) (hes : selectSizes C.tr ds = .ok es) (het : selectSizes C.tr dt = .ok et) (hsym : C.asym = true ∨ ds = dt)
    (hal : K.Aligned C 4 ds dt es et e.impl.N (SV.floatReqs c e.impl.N))
    (t : Peel.CTy) (b : Box) (hx : 0 ≤ b.x0) (hx' : b.x0 ≤ b.x1) (hstop : b.x1 + 2 * e.impl.N < t.hi)
    (q : Int) (hq : e.impl.N * q < b.x0) (hq' : b.x1 < e.impl.N * (q + 1))
    (W : World V) (hV : Valid C dv W) (hds : DimsAre C W s ds) (hdt : DimsAre C W o dt) (hns : ds ≠ ⟨0, 0, 0⟩) (hnt : dt ≠ ⟨0, 0, 0⟩)
    (σ : Loc → V) (hσ : ∀ l, InGrid C W l → ValueIs C W l (σ l)) (hin : K.Inside B s o { b with x1 := e.impl.N * (q + 1) } (InGrid C W) σ)
    (y z : Int) (hy : b.y0 ≤ y ∧ y < b.y1) (hz : b.z0 ≤ z ∧ z < b.z1) :
    Yields C dv W (K.apply B E.f32 s o { b with x1 := e.impl.N * (q + 1) } σ) (update C B base E K t e1 e b W s o) ∧
      ¬ b.Has b.x1 y z ∧ K.apply B E.f32 s o { b with x1 := e.impl.N * (q + 1) } σ (K.dstLoc o b.x1 y z) = K.result B E.f32 s o σ b.x1 y z := by
  refine ⟨float_update hL htr c e1 e he1 h1 he E B base hbase K hk s o hsafe ds dt es et hes het hsym hal t b _ ?_ W hV hds hdt hns hnt σ hσ
    hin, fun h => by simp [Box.Has] at h, ?_⟩
  · obtain ⟨pc, i1, i2, i3⟩ := C37_false_exact t e.impl.N b.x0 b.x1 hx hx' q hq hq' hstop
    exact ⟨pc, _, i1, i2, i3⟩
  · unfold Stencil.apply
    rw [if_pos]
    · simp [Stencil.dstLoc, at']
    · refine ⟨rfl, rfl, rfl, ?_⟩
      simp only [Stencil.dstLoc, at', Int.add_sub_cancel, Box.Has]
      omega

/-- C62 for time steps on `float`s: any number of calls, each followed by `swap` of the two grids, iterates the scalar code. -/
theorem C62_float_steps_partial (hL : C.L.WF) (htr : C.tr = .dflt) (c : SV.Cfg) (e1 e : Entry 32) (he1 : e1 ∈ SV.floatVecs c)
    (h1 : e1.impl.N = 1) (he : e ∈ SV.floatVecs c) (E : FEnv) (B : Bits 32 V) (base : Nat → Nat) (hbase : ∀ id, 4096 ∣ base id)
    (K : Stencil 32) (hk : K.code.only (SV.exactDiv c e.impl.N) (!SV.usesNeon c e.impl.N) (SV.hasFloatCmp c e.impl.N) = true)
    (s o : Nat) (hso : s ≠ o) (hsafe : K.Safe s o) (d ex : Ext) (hex : selectSizes C.tr d = .ok ex)
    (hal : K.Aligned C 4 d d ex ex e.impl.N (SV.floatReqs c e.impl.N))
    (t : Peel.CTy) (ht : (e.impl.N : Int) ∣ t.hi) (b : Box) (hx : 0 ≤ b.x0) (hstop : b.x1 < t.hi)
    (q : Int) (hq : b.x0 ≤ e.impl.N * q) (hq' : e.impl.N * q ≤ b.x1)
    (W : World V) (hV : Valid C dv W) (hds : DimsAre C W s d) (hdt : DimsAre C W o d) (hd : d ≠ ⟨0, 0, 0⟩)
    (σ : Loc → V) (hσ : ∀ l, InGrid C W l → ValueIs C W l (σ l)) (hin : K.Reach s o b (InGrid C W)) (hnum : K.Numbers B s o (InGrid C W) σ)
    (n : Nat) :
    Yields C dv W ((fun σ => exchange s o (K.apply B E.f32 s o b σ))^[n] σ) (timeSteps C B base E K t e1 e b s o n W) :=
  steps_ok hL B base E K e1 e E.f32 hso b t hd (fun W σ hV hs ho hσ hin => C62_float_partial hL htr c e1 e he1 h1 he E B base hbase K hk s o
    hsafe d d ex ex hex hex (.inr rfl) hal t ht b hx hstop q hq hq' W hV hs ho hd hd σ hσ hin) n W σ hV hds hdt hσ hin hnum

/-- C62 for time steps on `double`s. -/
theorem C62_double_steps_partial (hL : C.L.WF) (htr : C.tr = .dflt) (c : SV.Cfg) (e1 e : Entry 64) (he1 : e1 ∈ SV.doubleVecs c)
    (h1 : e1.impl.N = 1) (he : e ∈ SV.doubleVecs c) (E : FEnv) (B : Bits 64 V) (base : Nat → Nat) (hbase : ∀ id, 4096 ∣ base id)
    (K : Stencil 64) (hk : K.code.only (!decide (c = .qpx ∧ 2 < e.impl.N)) (!decide (c = .qpx ∧ 2 < e.impl.N))
      (SV.hasDoubleCmp c e.impl.N) = true)
    (s o : Nat) (hso : s ≠ o) (hsafe : K.Safe s o) (d ex : Ext) (hex : selectSizes C.tr d = .ok ex)
    (hal : K.Aligned C 8 d d ex ex e.impl.N (SV.doubleReqs c e.impl.N))
    (t : Peel.CTy) (ht : (e.impl.N : Int) ∣ t.hi) (b : Box) (hx : 0 ≤ b.x0) (hstop : b.x1 < t.hi)
    (q : Int) (hq : b.x0 ≤ e.impl.N * q) (hq' : e.impl.N * q ≤ b.x1)
    (W : World V) (hV : Valid C dv W) (hds : DimsAre C W s d) (hdt : DimsAre C W o d) (hd : d ≠ ⟨0, 0, 0⟩)
    (σ : Loc → V) (hσ : ∀ l, InGrid C W l → ValueIs C W l (σ l)) (hin : K.Reach s o b (InGrid C W)) (hnum : K.Numbers B s o (InGrid C W) σ)
    (n : Nat) :
    Yields C dv W ((fun σ => exchange s o (K.apply B E.f64 s o b σ))^[n] σ) (timeSteps C B base E K t e1 e b s o n W) :=
  steps_ok hL B base E K e1 e E.f64 hso b t hd (fun W σ hV hs ho hσ hin => C62_double_partial hL htr c e1 e he1 h1 he E B base hbase K hk s o
    hsafe d d ex ex hex hex (.inr rfl) hal t ht b hx hstop q hq hq' W hV hs ho hd hd σ hσ hin) n W σ hV hds hdt hσ hin hnum

/-- A vector on AVX512: 16 `float`s. -/
def avx512Float16 : Entry 32 := ⟨SV.Avx512Float16.impl, some SV.Avx512Float16.cmp, some .avx512f⟩

example : avx512Float16 ∈ SV.floatVecs .avx512f := by simp [SV.floatVecs, avx512Float16]

/-- C62 is false for aligned and streaming stores in some grids with default sizes: in a cube with extents of 136 cells every other row
    starts at an address which is not a multiple of 64. -/
theorem C62_false_aligned (hL : C.L.WF) (htr : C.tr = .dflt) (hsym : C.asym = false) (E : FEnv) (B : Bits 32 V) (base : Nat → Nat)
    (hbase : ∀ id, 4096 ∣ base id) (e1 : Entry 32) (r : Nat) (hr : MemberSize C r 4) (M : Mode) (hM : M ≠ .plain) (v : BitVec 32)
    (W : World V) (hV : Valid C dv W) (s o : Nat) (hs : DimsAre C W s ⟨136, 136, 136⟩) (ho : DimsAre C W o ⟨136, 136, 136⟩) :
    update C B base E ⟨.const v, fun _ => false, fun _ => ⟨0, 0, 0, r, 0⟩, ⟨0, 0, 0, r, 0⟩, M⟩ (.unsigned 64) e1 avx512Float16
      ⟨0, 16, 1, 2, 0, 1⟩ W s o = .error .oob := by
  obtain ⟨a, hR⟩ := hV.refines hL
  have hes : selectSizes C.tr ⟨136, 136, 136⟩ = .ok ⟨136, 136, 136⟩ := by rw [htr]; decide
  obtain ⟨ids, gs, i1, i2, i3, i4⟩ := has_of_dims hR hs (by decide) hes
  obtain ⟨idt, gt, j1, j2, j3, j4⟩ := has_of_dims hR ho (by decide) hes
  have hrows : Box.rows ⟨0, 16, 1, 2, 0, 1⟩ = [(1, 0)] := by decide
  have hpeel : Peel.peel (.unsigned 64) 16 0 16 = some ([(16, 0)], 16) := by decide
  obtain ⟨m, hm, hsz⟩ := hr
  simp only [update, World.withG, i1, j1, Grid.dualCallback, i2, j2, hes, hsym, i3, j3, Option.getD_some, hrows]
  have hbody : ∀ (A : Pair) (h : Heap V), A.et = ⟨136, 136, 136⟩ →
      body ⟨C.L, B, base, E⟩ ⟨.const v, fun _ => false, fun _ => ⟨0, 0, 0, r, 0⟩, ⟨0, 0, 0, r, 0⟩, M⟩ A avx512Float16 0 1 0 h = none := by
    intro A h hA
    unfold body
    simp only [Expr.vec, Option.bind_some, hm]
    cases h.blk A.idt with
    | none => rfl
    | some b =>
      simp only [hA]
      cases hq : elem (w := 32) C.L (base A.idt) ⟨136, 136, 136⟩ 0 1 0 ⟨0, 0, 0, r, 0⟩ m with
      | none => rfl
      | some q =>
        have hq4 : ¬ (64 : Int) ∣ q * 4 := by
          unfold elem at hq
          split at hq
          · rename_i hd
            simp only [Option.some.injEq] at hq
            have e1 : q * 4 = addr C.L (base A.idt) ⟨136, 136, 136⟩ 0 1 0 ⟨0, 0, 0, r, 0⟩ m := by
              rw [← hq]; exact Int.ediv_mul_cancel hd.2
            have e2 : addr C.L (base A.idt) ⟨136, 136, 136⟩ 0 1 0 ⟨0, 0, 0, r, 0⟩ m =
                base A.idt + 2515456 * (offset C.L r : Int) + 544 := by
              unfold addr Acc.userRef
              cases hm' : m.arity <;>
                simp only [Acc.member, Acc.arrayRef, Acc.shift, accAt, genIndex, hm', Ext.prod, hsz] <;> push_cast <;> ring
            obtain ⟨k, hk⟩ := hbase A.idt
            rw [e1, e2, hk]
            push_cast
            omega
          · cases hq
        have hst : M.store avx512Float16.impl E (avx512Float16.impl.bcast E v) q = none := by
          have hal : SV.assertAligned 4 q 64 = none := by
            unfold SV.assertAligned SV.aligned
            rw [if_neg]
            simpa using fun h => hq4 (Int.dvd_of_emod_eq_zero h)
          cases M with
          | plain => exact absurd rfl hM
          | aligned => show SV.Avx512Float16.store_aligned E _ q = none; unfold SV.Avx512Float16.store_aligned; rw [hal]; rfl
          | streaming => show SV.Avx512Float16.store_nt E _ q = none; unfold SV.Avx512Float16.store_nt; rw [hal]; rfl
        simp only [Option.bind_some]
        rw [hst]; rfl
  have hsweep : ∀ (A : Pair) (h : Heap V), A.et = ⟨136, 136, 136⟩ →
      sweep ⟨C.L, B, base, E⟩ ⟨.const v, fun _ => false, fun _ => ⟨0, 0, 0, r, 0⟩, ⟨0, 0, 0, r, 0⟩, M⟩ A (.unsigned 64) e1 avx512Float16
        ⟨0, 16, 1, 2, 0, 1⟩ [(1, 0)] h = none := by
    intro A h hA
    have hN : avx512Float16.impl.N = 16 := rfl
    simp only [sweep, rowCalls, hN, hpeel, Option.map_some, Option.bind_some, List.map_cons, List.map_nil, calls, if_true, hbody A h hA,
      Option.bind_none]
  have hsw := hsweep ⟨⟨136, 136, 136⟩, ⟨136, 136, 136⟩, ids, idt⟩ W.h rfl
  simp only [hsw, Bool.false_eq_true, if_false, ne_eq, not_true_eq_false, or_self]
  rfl

/-! ### The hypotheses can be met -/
namespace Demo

/-- struct { float temp; float weight[2]; } with default sizes. Values are bit patterns. -/
def dC : Cfg (BitVec 32) := ⟨[⟨⟨4, true⟩, none, 0⟩, ⟨⟨4, true⟩, some 2, 0⟩], .dflt, false⟩

theorem hL : dC.L.WF := by
  intro m hm
  simp only [dC, List.mem_cons, List.not_mem_nil, or_false] at hm
  rcases hm with rfl | rfl <;> simp [Member.elems]

def B : Bits 32 (BitVec 32) := ⟨id, some, fun _ => rfl⟩

/-- temp = (old.temp[-1, 0, 0] + old.temp[1, 0, 0] + old.temp[0, 0, -1]) * old.weight[1] -/
def K : Stencil 32 where
  code := .mul (.add (.add (.var 0) (.var 1)) (.var 2)) (.var 3)
  new := fun _ => false
  src := fun j => if j = 0 then ⟨-1, 0, 0, 0, 0⟩ else if j = 1 then ⟨1, 0, 0, 0, 0⟩ else if j = 2 then ⟨0, 0, -1, 0, 0⟩ else ⟨0, 0, 0, 1, 1⟩
  dst := ⟨0, 0, 0, 0, 0⟩
  mode := .plain

theorem vars {j : Nat} (h : j ∈ K.code.vars) : j < 4 := by
  simp [K, Expr.vars] at h
  omega

theorem world (d e : Ext) (hd : d ≠ ⟨0, 0, 0⟩) (he : selectSizes .dflt d = .ok e) : ∃ W, Valid dC 0 W ∧ DimsAre dC W 0 d ∧ DimsAre dC W 1 d := by
  have hleg : Spec.Legal dC 0 Spec.start [.new 0 d, .new 1 d] :=
    .new rfl hd he (.new (by simp [World.upd, Spec.start]) hd he .nil)
  obtain ⟨W, outs, a, h1, h2, h3, -⟩ := run_refines (C := dC) (dv := 0) hL R.init [.new 0 d, .new 1 d] [] (by rw [List.append_nil]; exact hleg)
  refine ⟨W, ⟨_, _, hleg, h1⟩, ?_⟩
  cases h2 with
  | cons p1 r1 =>
    cases r1 with
    | cons p2 r2 =>
      cases r2
      cases p1 with
      | newBlank => exact absurd rfl hd
      | newFail _ _ _ _ hx => exact absurd (hx.symm.trans he) (by simp)
      | new _ _ e' _ he' =>
        cases p2 with
        | newBlank => exact absurd rfl hd
        | newFail _ _ _ _ hx => exact absurd (hx.symm.trans he) (by simp)
        | new _ _ e'' _ he'' => exact ⟨h3.dims ((upd_ne _ _ (show (0 : Nat) ≠ 1 by decide)).trans (upd_self _ _ _)), h3.dims (upd_self _ _ _)⟩

theorem inGrid {W : World (BitVec 32)} (s : Nat) (d : Ext) (hs : DimsAre dC W s d) (x y z : Int) (r k : Nat) (hr : r = 0 ∧ k = 0 ∨ r = 1 ∧ k < 2)
    (h : 0 ≤ x ∧ x < d.x ∧ 0 ≤ y ∧ y < d.y ∧ 0 ≤ z ∧ z < d.z) : InGrid dC W ⟨s, x, y, z, r, k⟩ := by
  rcases hr with ⟨rfl, rfl⟩ | ⟨rfl, hk⟩
  · exact ⟨d, _, hs, rfl, by simp [Member.elems], h⟩
  · exact ⟨d, _, hs, rfl, by simpa [Member.elems] using hk, h⟩

theorem reach {W : World (BitVec 32)} (h0 : DimsAre dC W 0 ⟨60, 5, 4⟩) (h1 : DimsAre dC W 1 ⟨60, 5, 4⟩) :
    K.Reach 0 1 ⟨1, 59, 0, 5, 1, 4⟩ (InGrid dC W) := by
  intro x y z hb
  simp only [Box.Has] at hb
  refine ⟨inGrid _ _ h1 _ _ _ _ _ (.inl ⟨rfl, rfl⟩) (by simp only [K]; omega), fun j hj => ?_⟩
  have := vars hj
  rcases (show j = 0 ∨ j = 1 ∨ j = 2 ∨ j = 3 by omega) with rfl | rfl | rfl | rfl
  · exact inGrid 0 _ h0 _ _ _ _ _ (.inl ⟨rfl, rfl⟩) (by simp [K]; omega)
  · exact inGrid 0 _ h0 _ _ _ _ _ (.inl ⟨rfl, rfl⟩) (by simp [K]; omega)
  · exact inGrid 0 _ h0 _ _ _ _ _ (.inl ⟨rfl, rfl⟩) (by simp [K]; omega)
  · exact inGrid 0 _ h0 _ _ _ _ _ (.inr ⟨rfl, by simp [K]⟩) (by simp [K]; omega)

theorem aligned (d e : Ext) (Q : Reqs) (hQ : Q.any = 1) (N : Nat) : K.Aligned dC 4 d d e e N Q where
  srcs := fun j hj => by
    have := vars hj
    rcases (show j = 0 ∨ j = 1 ∨ j = 2 ∨ j = 3 by omega) with rfl | rfl | rfl | rfl <;> exact ⟨_, rfl, rfl⟩
  src := fun j _ => .inl hQ
  dsts := ⟨_, rfl, rfl⟩
  dst := ⟨1, by simp [K, Mode.storeReq, hQ], .inl rfl⟩

/-- 7 steps on AVX with vectors of 8 `float`s, for the cells 1, …, 58 of rows with 60 cells. -/
example : ∃ W σ e1 e base, Yields dC 0 W ((fun σ => exchange 0 1 (K.apply B FEnv.demo.f32 0 1 ⟨1, 59, 0, 5, 1, 4⟩ σ))^[7] σ)
    (timeSteps dC B base FEnv.demo K (.signed 64) e1 e ⟨1, 59, 0, 5, 1, 4⟩ 0 1 7 W) := by
  obtain ⟨W, hV, h0, h1⟩ := world ⟨60, 5, 4⟩ ⟨64, 64, 64⟩ (by decide) (by decide)
  obtain ⟨σ, hσ⟩ := Thr.exists_store hL hV
  obtain ⟨e1, he1, hn1, e, he, hn⟩ : ∃ e1 ∈ SV.floatVecs .avx, e1.impl.N = 1 ∧ ∃ e ∈ SV.floatVecs .avx, e.impl.N = 8 :=
    ⟨_, List.mem_cons_self, rfl, _, List.mem_cons_of_mem _ (List.mem_cons_of_mem _ (List.mem_cons_of_mem _ List.mem_cons_self)), rfl⟩
  refine ⟨W, σ, e1, e, fun id => 4096 * (1 + 100000 * id), ?_⟩
  refine C62_float_steps_partial hL rfl .avx e1 e he1 hn1 he FEnv.demo B _ (fun id => ⟨_, rfl⟩) K (by rw [hn]; rfl) 0 1 (by decide) ?_
    ⟨60, 5, 4⟩ ⟨64, 64, 64⟩ (by decide) (aligned _ _ _ (by rw [hn]; rfl) _) (.signed 64) (by rw [hn]; decide) ⟨1, 59, 0, 5, 1, 4⟩ (by decide) (by decide)
    1 (by rw [hn]; decide) (by rw [hn]; decide) W hV h0 h1 (by decide) σ hσ (reach h0 h1) (fun _ _ _ _ => rfl) 7
  intro j _ h
  cases h

/-- The overrun: cells 1 and 2 are to be updated. -/
example : ∃ W σ e1 e base, Yields dC 0 W (K.apply B FEnv.demo.f32 0 1 ⟨1, 8, 0, 5, 1, 4⟩ σ)
    (update dC B base FEnv.demo K (.signed 64) e1 e ⟨1, 3, 0, 5, 1, 4⟩ W 0 1) := by
  obtain ⟨W, hV, h0, h1⟩ := world ⟨60, 5, 4⟩ ⟨64, 64, 64⟩ (by decide) (by decide)
  obtain ⟨σ, hσ⟩ := Thr.exists_store hL hV
  obtain ⟨e1, he1, hn1, e, he, hn⟩ : ∃ e1 ∈ SV.floatVecs .avx, e1.impl.N = 1 ∧ ∃ e ∈ SV.floatVecs .avx, e.impl.N = 8 :=
    ⟨_, List.mem_cons_self, rfl, _, List.mem_cons_of_mem _ (List.mem_cons_of_mem _ (List.mem_cons_of_mem _ List.mem_cons_self)), rfl⟩
  refine ⟨W, σ, e1, e, fun id => 4096 * (1 + 100000 * id), ?_⟩
  have := (C62_false hL rfl .avx e1 e he1 hn1 he FEnv.demo B (fun id => 4096 * (1 + 100000 * id)) (fun id => ⟨_, rfl⟩) K (by rw [hn]; rfl) 0 1 (fun j _ h => by cases h)
    ⟨60, 5, 4⟩ ⟨60, 5, 4⟩ ⟨64, 64, 64⟩ ⟨64, 64, 64⟩ (by decide) (by decide) (.inr rfl) (aligned _ _ _ (by rw [hn]; rfl) _) (.signed 64)
    ⟨1, 3, 0, 5, 1, 4⟩ (by decide) (by decide) (by rw [hn]; decide)
    0 (by rw [hn]; decide) (by rw [hn]; decide) W hV h0 h1 (by decide) (by decide) σ hσ (by
      refine Stencil.Reach.inside (fun x y z hb => reach h0 h1 x y z ?_) (fun _ _ _ _ => rfl)
      rw [hn] at hb
      simp only [Box.Has] at hb ⊢
      omega) 0 1 (by decide) (by decide)).1
  rw [hn] at this
  exact this

example : ∃ W, Valid dC 0 W ∧ ∀ base, (∀ id, 4096 ∣ base id) → ∀ e1, update dC B base FEnv.demo
    ⟨.const 0, fun _ => false, fun _ => ⟨0, 0, 0, 0, 0⟩, ⟨0, 0, 0, 0, 0⟩, .streaming⟩ (.unsigned 64) e1 avx512Float16
      ⟨0, 16, 1, 2, 0, 1⟩ W 0 1 = .error .oob := by
  obtain ⟨W, hV, h0, h1⟩ := world ⟨136, 136, 136⟩ ⟨136, 136, 136⟩ (by decide) (by decide)
  exact ⟨W, hV, fun base hb e1 => C62_false_aligned hL rfl rfl FEnv.demo B base hb e1 0 ⟨_, rfl, rfl⟩ .streaming (by decide) 0 W hV 0 1 h0 h1⟩

end Demo

end LFA.GK
