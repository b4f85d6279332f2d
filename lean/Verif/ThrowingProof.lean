import Verif.Throwing
import Verif.GridValid
import Verif.Props.Threads

/-
  Proofs about Verif/Throwing.lean: a functor which assigns to one member after the other has the effect of the same assignments
  written one by one through an accessor.
-/
set_option linter.unusedSectionVars false
namespace LFA
namespace Throwing
open Thr

variable {V : Type} [DecidableEq V] {C : Cfg V} {dv : V}

/-- Values after a sequence of assignments. -/
def after (σ : Loc → V) : List (Loc × V) → Loc → V
  | [] => σ
  | t :: ts => after (fun l => if l = t.1 then t.2 else σ l) ts

theorem after_snoc (σ : Loc → V) (ts : List (Loc × V)) (t : Loc × V) (l : Loc) :
    after σ (ts ++ [t]) l = if l = t.1 then t.2 else after σ ts l := by
  induction ts generalizing σ with
  | nil => rfl
  | cons x ts ih => exact ih _

theorem after_or (σ : Loc → V) (ts : List (Loc × V)) (l : Loc) : after σ ts l = σ l ∨ ∃ t ∈ ts, t.1 = l ∧ after σ ts l = t.2 := by
  induction ts generalizing σ with
  | nil => exact .inl rfl
  | cons x ts ih =>
    rcases ih (fun l => if l = x.1 then x.2 else σ l) with h | ⟨t, h1, h2, h3⟩
    · by_cases hl : l = x.1
      · refine .inr ⟨x, List.mem_cons_self, hl.symm, ?_⟩
        show after _ ts l = _
        rw [h, if_pos hl]
      · left
        show after _ ts l = _
        rw [h, if_neg hl]
    · exact .inr ⟨t, List.mem_cons_of_mem _ h1, h2, h3⟩

/-- Address of a member of a grid with extents `e`. -/
def addr (C : Cfg V) (e : Ext) (l : Loc) (m : Member V) : Int :=
  ((accAt e (genIndex e l.x l.y l.z)).shift 0 0 0).userRef C.L l.r m l.k

theorem addr_slot (hL : C.L.WF) {e : Ext} {s x y z r k : Nat} {m : Member V} (hm : C.L[r]? = some m) (hk : k < m.elems) :
    addr C e ⟨s, x, y, z, r, k⟩ m = (slot e.prod (offset C.L r) m.ty.size k (lin e x y z) : Nat) := by
  have hA := shift_At (e := e) (x := x) (y := y) (z := z) (X := 0) (Y := 0) (Z := 0) (Int.add_zero _) (Int.add_zero _) (Int.add_zero _)
  exact userRef_slot hL hA hm hk

theorem set_set (h : Heap V) (id : Nat) (b b' : Block V) : (h.set id b).set id b' = h.set id b' := by
  unfold Heap.set
  congr 1
  funext i
  by_cases hi : i = id <;> simp [hi]

theorem set_self {h : Heap V} {id : Nat} {b : Block V} (hb : h.blk id = some b) : h.set id b = h := by
  unfold Heap.set
  cases h with
  | mk next blk freed =>
    congr 1
    funext i
    by_cases hi : i = id
    · subst hi; simpa using hb.symm
    · simp [hi]

/-- One assignment. -/
theorem poke_block (hL : C.L.WF) {w : World V} {a : AWorld V} (hV : Valid C dv w) (hR : R C w a) {l : Loc} (hin : InA C a l) {g : Grid}
    {id : Nat} {b : Block V} {e : Ext} (hg : w.g l.s = some g) (hid : g.data = some id) (hb : w.h.blk id = some b)
    (hsel : selectSizes C.tr g.dim = .ok e) {m : Member V} (hm : C.L[l.r]? = some m) (v : V) :
    ∃ b' a', b.assign (addr C e l m) m.ty v = .ok b' ∧ Valid C dv ⟨w.h.set id b', w.g⟩ ∧ R C ⟨w.h.set id b', w.g⟩ a' ∧
      (∀ l', InA C a' l' ↔ InA C a l') ∧ ∀ l', InA C a l' → valA dv a' l' = if l' = l then v else valA dv a l' := by
  have hin' : InA C a (Ref.mk l.s l.x l.y l.z 0 0 0 l.r l.k).loc := by simpa [Ref.loc] using hin
  obtain ⟨w', a', h1, h2, h3, h4⟩ := poke_step (dv := dv) hL hR hin' v
  have hv' : Valid C dv w' := by
    obtain ⟨ag, m', k1, k2⟩ := hin'
    exact hV.next hL hR (op := .poke _ _ _ _ _ _ _ _ _ _) (fun _ h => by cases h) ⟨ag, m', k1, k2⟩ h1
  simp only [World.step, World.withG, hg, Grid.callbackMut, hsel, hid, LFA.onBuffer, hb, pokeFunctor, hm] at h1
  cases hasg : b.assign (addr C e l m) m.ty v with
  | error u =>
    unfold addr at hasg
    rw [hasg] at h1
    simp [World.ofH] at h1
  | ok b' =>
    unfold addr at hasg
    rw [hasg] at h1
    simp only [World.ofH, Except.ok.injEq, Prod.mk.injEq, and_true] at h1
    refine ⟨b', a', rfl, ?_, ?_, h3, ?_⟩
    · rw [h1]; exact hv'
    · rw [h1]; exact h2
    · intro l' hl'
      have := h4 l' hl'
      simpa [Ref.loc] using this

/-- Target of an operation. -/
def target : MemOp V → Option (Int × Ty)
  | .assign a ty _ | .copy _ a ty => some (a, ty)
  | _ => none

/-- The operation `o` on the buffer `id` of grid `s` is the assignment `t`, in all states which differ from the initial one by assignments
    in `ts`. -/
structure Does (C : Cfg V) (dv : V) (w : World V) (a : AWorld V) (s id : Nat) (e : Ext) (src : Block V → Block V) (ts : List (Loc × V))
    (o : MemOp V) (t : Loc × V) : Prop where
  grid : t.1.s = s
  inA : InA C a t.1
  tgt : ∀ m, C.L[t.1.r]? = some m → target o = some (addr C e t.1 m, m.ty)
  run : ∀ m b' a', C.L[t.1.r]? = some m → R C ⟨w.h.set id b', w.g⟩ a' → (∀ l, InA C a' l ↔ InA C a l) →
    (∀ l, InA C a l → valA dv a' l = valA dv a l ∨ ∃ t' ∈ ts, t'.1 = l ∧ valA dv a' l = t'.2) →
    exec src o b' = b'.assign (addr C e t.1 m) m.ty t.2

variable {w : World V} {a : AWorld V} {s : Nat} {g : Grid} {id : Nat} {b : Block V} {e : Ext} {src : Block V → Block V}
  {ops : List (MemOp V)} {ts : List (Loc × V)}

theorem runL_snoc {σ ω : Type} (ex : ω → σ → Except UB σ) (os : List ω) (o : ω) (s s' : σ) (h : runL ex os s = .ok s') :
    runL ex (os ++ [o]) s = ex o s' := by
  rw [runL_append, h]
  exact runL_one o s'

/-- The first `n` operations. -/
theorem prefix_ok (hL : C.L.WF) (hV : Valid C dv w) (hR : R C w a) (hg : w.g s = some g) (hid : g.data = some id) (hb : w.h.blk id = some b)
    (hsel : selectSizes C.tr g.dim = .ok e) (H : List.Forall₂ (Does C dv w a s id e src ts) ops ts) (n : Nat) (hn : n ≤ ops.length) :
    ∃ b' a', runL (exec src) (ops.take n) b = .ok b' ∧ Valid C dv ⟨w.h.set id b', w.g⟩ ∧ R C ⟨w.h.set id b', w.g⟩ a' ∧
      (∀ l, InA C a' l ↔ InA C a l) ∧ ∀ l, InA C a l → valA dv a' l = after (valA dv a) (ts.take n) l := by
  induction n with
  | zero => exact ⟨b, a, rfl, by rw [set_self hb]; exact hV, by rw [set_self hb]; exact hR, fun _ => Iff.rfl, fun _ _ => by simp [after]⟩
  | succ n ih =>
    obtain ⟨b', a', k1, k2, k3, k4, k5⟩ := ih (by omega)
    have hlen := H.length_eq
    have hD := H.get (i := n) (by omega) (by omega)
    simp only [List.get_eq_getElem] at hD
    obtain ⟨ag, m, q1, q2, q3, q4⟩ := hD.inA
    have hin' : InA C a' ts[n].1 := (k4 _).2 hD.inA
    obtain ⟨b'', a'', j1, j2, j3, j4, j5⟩ := poke_block hL k2 k3 hin' (b := b') (by rw [hD.grid]; exact hg) hid (by simp [Heap.set]) hsel q2 ts[n].2
    rw [set_set] at j2 j3
    refine ⟨b'', a'', ?_, j2, j3, fun l => (j4 l).trans (k4 l), fun l hl => ?_⟩
    · rw [List.take_succ_eq_append_getElem (by omega), runL_snoc _ _ _ _ _ k1, hD.run m b' a' q2 k3 k4, j1]
      intro l hl
      rw [k5 l hl]
      rcases after_or (valA dv a) (ts.take n) l with h | ⟨t, h1, h2⟩
      · exact .inl h
      · exact .inr ⟨t, List.mem_of_mem_take h1, h2⟩
    · rw [j5 l ((k4 l).2 hl), List.take_succ_eq_append_getElem (by omega), after_snoc, k5 l hl]

/-- The values which an exception in the `n`-th assignment leaves behind. -/
def left (σ : Loc → V) (ts : List (Loc × V)) (n : Nat) (u : Option V) : Loc → V :=
  match ts[n]?, u with
  | some t, some v => fun l => if l = t.1 then v else after σ (ts.take n) l
  | _, _ => after σ (ts.take n)

theorem upTo_ok (hL : C.L.WF) (hV : Valid C dv w) (hR : R C w a) (hg : w.g s = some g) (hid : g.data = some id) (hb : w.h.blk id = some b)
    (hsel : selectSizes C.tr g.dim = .ok e) (H : List.Forall₂ (Does C dv w a s id e src ts) ops ts) (n : Nat) (u : Option V) :
    ∃ ob, upTo src ops n u b = .ok ob ∧
      (ob.isSome ↔ ∃ t m, ts[n]? = some t ∧ C.L[t.1.r]? = some m ∧ m.ty.triv = false) ∧
      ∀ b', ob = some b' → ∃ a', Valid C dv ⟨w.h.set id b', w.g⟩ ∧ R C ⟨w.h.set id b', w.g⟩ a' ∧
        (∀ l, InA C a' l ↔ InA C a l) ∧ ∀ l, InA C a l → valA dv a' l = left (valA dv a) ts n u l := by
  have hlen := H.length_eq
  unfold upTo
  by_cases hn : n < ops.length
  · have hD := H.get (i := n) hn (by omega)
    simp only [List.get_eq_getElem] at hD
    obtain ⟨ag, m, q1, q2, q3, q4⟩ := hD.inA
    have htn : ts[n]? = some ts[n] := List.getElem?_eq_getElem (by omega)
    rw [List.getElem?_eq_getElem hn]
    have htgt := hD.tgt m q2
    have hty : objTy ops[n] = some m.ty := by
      revert htgt
      cases ops[n] <;> simp only [target, objTy, Option.some.injEq, Prod.mk.injEq, reduceCtorEq, false_imp_iff] <;> exact fun h => h.2
    simp only [hty]
    cases htr : m.ty with
    | mk sz tr =>
      cases tr with
      | true =>
        refine ⟨none, rfl, ?_, fun _ h => nomatch h⟩
        simp only [Option.isSome_none, Bool.false_eq_true, false_iff]
        rintro ⟨t, m', h1, h2, h3⟩
        rw [htn] at h1; cases h1
        rw [q2] at h2; cases h2
        rw [htr] at h3; cases h3
      | false =>
        simp only
        obtain ⟨b', a', k1, k2, k3, k4, k5⟩ := prefix_ok hL hV hR hg hid hb hsel H n (by omega)
        have hin' : InA C a' ts[n].1 := (k4 _).2 hD.inA
        have hor : ∀ l, InA C a l → valA dv a' l = valA dv a l ∨ ∃ t' ∈ ts, t'.1 = l ∧ valA dv a' l = t'.2 := by
          intro l hl
          rw [k5 l hl]
          rcases after_or (valA dv a) (ts.take n) l with h | ⟨t, h1, h2⟩
          · exact .inl h
          · exact .inr ⟨t, List.mem_of_mem_take h1, h2⟩
        have hpk := fun v => poke_block hL k2 k3 hin' (b := b') (by rw [hD.grid]; exact hg) hid (by simp [Heap.set]) hsel q2 v
        obtain ⟨b0, -, j1, -⟩ := hpk ts[n].2
        have hex := hD.run m b' a' q2 k3 k4 hor
        rw [j1] at hex
        rw [k1]
        have hsome : ∃ t m', ts[n]? = some t ∧ C.L[t.1.r]? = some m' ∧ m'.ty.triv = false := ⟨_, m, htn, q2, by rw [htr]⟩
        have hleft : ∀ l, left (valA dv a) ts n u l = match u with
            | some v => if l = ts[n].1 then v else after (valA dv a) (ts.take n) l
            | none => after (valA dv a) (ts.take n) l := by
          intro l
          unfold left
          rw [htn]
          cases u <;> rfl
        cases u with
        | none =>
          have hf : failed src none ops[n] b' = .ok b' := by
            unfold failed
            rw [hex]
            show (match ops[n], (none : Option V) with
              | .assign a ty _, some v => b'.assign a ty v
              | .copy _ a ty, some v => b'.assign a ty v
              | _, _ => Except.ok b') = _
            cases ops[n] <;> rfl
          refine ⟨some b', by show ((Except.ok b' : Except UB (Block V)).bind _).map _ = _; simp only [Except.bind, hf]; rfl, by simpa using hsome, ?_⟩
          rintro _ ⟨⟩
          exact ⟨a', k2, k3, k4, fun l hl => by rw [hleft]; exact k5 l hl⟩
        | some v =>
          obtain ⟨b1, a1, i1, i2, i3, i4, i5⟩ := hpk v
          have hf : failed src (some v) ops[n] b' = .ok b1 := by
            unfold failed
            rw [hex]
            show (match ops[n], (some v : Option V) with
              | .assign a ty _, some v => b'.assign a ty v
              | .copy _ a ty, some v => b'.assign a ty v
              | _, _ => Except.ok b') = _
            revert htgt
            cases ops[n] <;> simp only [target, Option.some.injEq, Prod.mk.injEq, reduceCtorEq, false_imp_iff] <;>
              (rintro ⟨rfl, rfl⟩; exact i1)
          rw [set_set] at i2 i3
          refine ⟨some b1, by show ((Except.ok b' : Except UB (Block V)).bind _).map _ = _; simp only [Except.bind, hf]; rfl, by simpa using hsome, ?_⟩
          rintro _ ⟨⟩
          refine ⟨a1, i2, i3, fun l => (i4 l).trans (k4 l), fun l hl => ?_⟩
          rw [hleft, i5 l ((k4 l).2 hl), k5 l hl]
  · rw [List.getElem?_eq_none (by omega)]
    refine ⟨none, rfl, ?_, fun _ h => nomatch h⟩
    simp only [Option.isSome_none, Bool.false_eq_true, false_iff]
    rintro ⟨t, m', h1, -⟩
    rw [List.getElem?_eq_none (by omega)] at h1
    cases h1

/-! ### The assignments of each functor, in order -/

/-- The objects of a struct in the order of their registration: member and array element. -/
def objects (L : Layout V) : List (Nat × Nat) := L.zipIdx.flatMap fun p => (List.range p.1.elems).map fun k => (p.2, k)

/-- `set`, `broadcast`: struct by struct, all objects of one struct first. -/
def setWrites (L : Layout V) (s x y z n : Nat) (new : Nat → Cell V) : List (Loc × V) :=
  (List.range n).flatMap fun i => (objects L).map fun p => (⟨s, (x + i : Nat), y, z, p.1, p.2⟩, new i p.1 p.2)

/-- `load`: streak by streak; for each streak object by object, the same object of all structs first. `row i` are the values of the `i`-th
    struct in the source. -/
def loadWrites (L : Layout V) (s : Nat) (row : Nat → Cell V) : List Streak → Nat → List (Loc × V)
  | [], _ => []
  | st :: ss, off => ((objects L).flatMap fun p => (List.range st.len).map fun (i : Nat) =>
      (⟨s, (st.x + i : Nat), st.y, st.z, p.1, p.2⟩, row (off + i) p.1 p.2)) ++ loadWrites L s row ss (off + st.len)

/-- `operator=`: row by row; for each row object by object, the same object of all structs first. -/
def copyWrites (L : Layout V) (s : Nat) (d : Ext) (cells : Nat → Nat → Nat → Cell V) : List (Loc × V) :=
  (List.range d.z).flatMap fun (z : Nat) => (List.range d.y).flatMap fun (y : Nat) => (objects L).flatMap fun p =>
    (List.range d.x).map fun (x : Nat) => (⟨s, x, y, z, p.1, p.2⟩, cells x y z p.1 p.2)

theorem objects_eq (L : Layout V) : objects L = (memKeys L).map fun q => (q.1, q.2.2) := by
  unfold objects memKeys
  simp [List.map_flatMap, Function.comp_def]

theorem forall2_flatMap {α β γ δ : Type} {P : γ → δ → Prop} {l : List α} {k : α → β} {f : α → List γ} {f' : β → List δ}
    (h : ∀ a ∈ l, List.Forall₂ P (f a) (f' (k a))) : List.Forall₂ P (l.flatMap f) ((l.map k).flatMap f') := by
  induction l with
  | nil => exact .nil
  | cons a l ih =>
    simp only [List.flatMap_cons, List.map_cons]
    exact List.rel_append (h a List.mem_cons_self) (ih fun x hx => h x (List.mem_cons_of_mem _ hx))

theorem forall2_flatMap' {α γ δ : Type} {P : γ → δ → Prop} {l : List α} {f : α → List γ} {f' : α → List δ}
    (h : ∀ a ∈ l, List.Forall₂ P (f a) (f' a)) : List.Forall₂ P (l.flatMap f) (l.flatMap f') := by
  have := forall2_flatMap (k := fun a => a) h
  rwa [List.map_id'] at this

theorem forall2_map {α β γ δ : Type} {P : γ → δ → Prop} {l : List α} {k : α → β} {f : α → γ} {f' : β → δ}
    (h : ∀ a ∈ l, P (f a) (f' (k a))) : List.Forall₂ P (l.map f) ((l.map k).map f') := by
  induction l with
  | nil => exact .nil
  | cons a l ih => exact .cons (h a List.mem_cons_self) (ih fun x hx => h x (List.mem_cons_of_mem _ hx))

theorem forall2_map' {α γ δ : Type} {P : γ → δ → Prop} {l : List α} {f : α → γ} {f' : α → δ}
    (h : ∀ a ∈ l, P (f a) (f' a)) : List.Forall₂ P (l.map f) (l.map f') := by
  have := forall2_map (k := fun a => a) h
  rwa [List.map_id'] at this

variable {ag : AGrid V} {x y z r k : Nat} {m : Member V} {v : V} {A sa : Int}

theorem inA_nat (has : a s = .grid ag) (hm : C.L[r]? = some m) (hk : k < m.elems) (hx : x < ag.dim.x) (hy : y < ag.dim.y)
    (hz : z < ag.dim.z) : InA C a ⟨s, x, y, z, r, k⟩ :=
  ⟨ag, m, has, hm, hk, Int.natCast_nonneg _, Int.ofNat_lt.2 hx, Int.natCast_nonneg _, Int.ofNat_lt.2 hy, Int.natCast_nonneg _,
    Int.ofNat_lt.2 hz⟩

theorem Does.ofAssign (hL : C.L.WF) (has : a s = .grid ag) (hm : C.L[r]? = some m) (hk : k < m.elems) (hx : x < ag.dim.x) (hy : y < ag.dim.y)
    (hz : z < ag.dim.z) (hA : A = (slot e.prod (offset C.L r) m.ty.size k (lin e x y z) : Nat)) :
    Does C dv w a s id e src ts (.assign A m.ty v) (⟨s, x, y, z, r, k⟩, v) := by
  have ha := addr_slot hL (s := s) (e := e) (x := x) (y := y) (z := z) hm hk
  refine ⟨rfl, inA_nat has hm hk hx hy hz, ?_, ?_⟩
  · intro m' hm'
    have : some m = some m' := hm.symm.trans hm'
    cases this
    rw [ha, ← hA]; rfl
  · intro m' b' a' hm' _ _ _
    have : some m = some m' := hm.symm.trans hm'
    cases this
    rw [ha, ← hA]; rfl

theorem Does.ofCopy (hL : C.L.WF) (has : a s = .grid ag) (hm : C.L[r]? = some m) (hk : k < m.elems) (hx : x < ag.dim.x) (hy : y < ag.dim.y)
    (hz : z < ag.dim.z) (hA : A = (slot e.prod (offset C.L r) m.ty.size k (lin e x y z) : Nat))
    (hread : ∀ b' a', R C ⟨w.h.set id b', w.g⟩ a' → (∀ l, InA C a' l ↔ InA C a l) →
      (∀ l, InA C a l → valA dv a' l = valA dv a l ∨ ∃ t' ∈ ts, t'.1 = l ∧ valA dv a' l = t'.2) → (src b').read sa m.ty = .ok v) :
    Does C dv w a s id e src ts (.copy sa A m.ty) (⟨s, x, y, z, r, k⟩, v) := by
  have ha := addr_slot hL (s := s) (e := e) (x := x) (y := y) (z := z) hm hk
  refine ⟨rfl, inA_nat has hm hk hx hy hz, ?_, ?_⟩
  · intro m' hm'
    have : some m = some m' := hm.symm.trans hm'
    cases this
    rw [ha, ← hA]; rfl
  · intro m' b' a' hm' h1 h2 h3
    have : some m = some m' := hm.symm.trans hm'
    cases this
    rw [ha, ← hA]
    show ((src b').read sa m.ty).bind _ = _
    rw [hread b' a' h1 h2 h3]
    rfl

theorem setList_does (hL : C.L.WF) (has : a s = .grid ag) {stride : Nat} {cells : List (Cell V)} {n : Nat} {new : Nat → Cell V}
    (hsrc : ∀ j, j < n → cells[j * stride]? = some (new j)) (hx : x + n ≤ ag.dim.x) (hy : y < ag.dim.y) (hz : z < ag.dim.z) :
    List.Forall₂ (Does C dv w a s id e src ts) (setList C.L e stride cells x y z n) (setWrites C.L s x y z n new) := by
  unfold setList setWrites
  refine forall2_flatMap' fun i hi => ?_
  have hi' := List.mem_range.1 hi
  unfold setOpsAt
  rw [hsrc i hi', objects_eq]
  refine forall2_map fun q hq => ?_
  obtain ⟨hm, hk⟩ := mem_memKeys hq
  have hAt : (accAt e (genIndex e ((x + i : Nat)) y z)).At (lin e (x + i) y z) := by rw [genIndex_lin]; exact accAt_At e _
  refine Does.ofAssign hL has hm hk (by omega) hy hz ?_
  cases ha : q.2.1.arity with
  | none =>
    have h0 : q.2.2 = 0 := by rw [elems_none ha] at hk; omega
    rw [h0]
    exact Acc.member_slot C.L hAt q.1 q.2.1 0 (by rw [elems_none ha]; omega)
  | some _ => exact Acc.member_plane_slot C.L hAt q.1 q.2.1 q.2.2 (hL.elems_pos hm)

theorem loadList_does (hL : C.L.WF) (has : a s = .grid ag) {sb : Block V} {n : Nat} {rows : List (Cell V)} {row : Nat → Cell V}
    (hp : Spec.Packed C.L n rows sb) (hrow : ∀ j, j < rows.length → rows[j]? = some (row j)) (hrn : rows.length ≤ n) (ss : List Streak) (off : Nat)
    (hin : ∀ st ∈ ss, Spec.StreakIn ag.dim st) (hoff : off + (Spec.coords ss).length ≤ rows.length) :
    List.Forall₂ (Does C dv w a s id e (fun _ => sb) ts) (loadList C.L e n ss off) (loadWrites C.L s row ss off) := by
  induction ss generalizing off with
  | nil => exact .nil
  | cons st ss ih =>
    rw [coords_cons, List.length_append, rowCoords_length] at hoff
    obtain ⟨hx, hy, hz⟩ := hin st (by simp)
    refine List.rel_append ?_ (ih (off + st.len) (fun s hs => hin s (by simp [hs])) (by omega))
    rw [objects_eq]
    refine forall2_flatMap fun q hq => forall2_map' fun i hi => ?_
    have hi' := List.mem_range.1 hi
    obtain ⟨hm, hk⟩ := mem_memKeys hq
    have hAt : (accAt e (genIndex e st.x st.y st.z)).At (lin e st.x st.y st.z) := by rw [genIndex_lin]; exact accAt_At e _
    have hl : lin e st.x st.y st.z + i = lin e (st.x + i) st.y st.z := by unfold lin; omega
    have hrd : ∀ sa : Int, sa = (slot n (offset C.L q.1) q.2.1.ty.size q.2.2 (off + i) : Nat) →
        sb.read sa q.2.1.ty = .ok (row (off + i) q.1 q.2.2) := by
      rintro sa rfl
      exact (packed_reads hp).read hL hm hk (by omega) (by unfold rowsCont; rw [hrow _ (by omega)]; rfl)
    unfold loadOp
    cases ha : q.2.1.arity with
    | none =>
      have h0 : q.2.2 = 0 := by rw [elems_none ha] at hk; omega
      refine Does.ofCopy hL has hm hk (by omega) hy hz ?_ fun _ _ _ _ _ => hrd _ ?_
      · rw [← hl, h0]
        exact Acc.member_row_slot C.L hAt q.1 q.2.1 i (by rw [elems_none ha]; omega)
      · rw [h0]
        exact Acc.raw_slot _ _ _ _ _
    | some _ =>
      refine Does.ofCopy hL has hm hk (by omega) hy hz ?_ fun _ _ _ _ _ => hrd _ ?_
      · rw [← hl]
        exact Acc.arrayRef_plane_row_slot C.L hAt q.1 q.2.1 q.2.2 i (hL.elems_pos hm)
      · exact Acc.raw_plane_slot _ _ _ _ _ _

theorem mem_copyWrites {L : Layout V} {d : Ext} {cells : Nat → Nat → Nat → Cell V} {t : Loc × V} (h : t ∈ copyWrites L s d cells) :
    ∃ x y z : Nat, t.1.s = s ∧ t.1.x = x ∧ t.1.y = y ∧ t.1.z = z ∧ t.2 = cells x y z t.1.r t.1.k := by
  unfold copyWrites at h
  simp only [List.mem_flatMap, List.mem_map] at h
  obtain ⟨z, -, y, -, p, -, x, -, rfl⟩ := h
  exact ⟨x, y, z, rfl, rfl, rfl, rfl, rfl⟩

theorem copyList_does (hL : C.L.WF) (hR : R C w a) (hg : w.g s = some g) (hid : g.data = some id) (has : a s = .grid ag)
    {t : Nat} {other : Grid} {o : AGrid V} (hot : w.g t = some other) (hat : a t = .grid o) (hdim : ag.dim = o.dim)
    (hsel : selectSizes C.tr ag.dim = .ok e) :
    List.Forall₂ (Does C dv w a s id e (srcBlock w.h other.data g.data) (copyWrites C.L s ag.dim o.cells)) (copyList C.L ag.dim e e)
      (copyWrites C.L s ag.dim o.cells) := by
  have hd := selectSizes_fits hsel
  have hread : ∀ (x y z r k : Nat) (m : Member V), C.L[r]? = some m → k < m.elems → x < ag.dim.x → y < ag.dim.y → z < ag.dim.z →
      ∀ b' a', R C ⟨w.h.set id b', w.g⟩ a' → (∀ l, InA C a' l ↔ InA C a l) →
      (∀ l, InA C a l → valA dv a' l = valA dv a l ∨ ∃ t' ∈ copyWrites C.L s ag.dim o.cells, t'.1 = l ∧ valA dv a' l = t'.2) →
      ((srcBlock w.h other.data g.data) b').read (slot e.prod (offset C.L r) m.ty.size k (lin e x y z) : Nat) m.ty = .ok (o.cells x y z r k) := by
    intro x y z r k m hm hk hx hy hz b' a' hR' hin hv
    obtain ⟨other', q1, q2⟩ := hR.grid hat
    rw [hot] at q1; cases q1
    obtain ⟨o1, e', ido, bo, o2, o3, o4, o5, o6, o7, o8⟩ := q2
    rw [← hdim, hsel] at o2; cases o2
    have hlin : lin e x y z < e.prod :=
      lin_lt (Nat.lt_of_lt_of_le hx hd.1) (Nat.lt_of_lt_of_le hy hd.2.1) (Nat.lt_of_lt_of_le hz hd.2.2)
    by_cases heq : other.data = g.data
    · -- both are the same grid
      have hst : s = t := hR.own s t g other id hg hot hid (by rw [heq, hid])
      subst hst
      rw [hat] at has; cases has
      rw [hot] at hg; cases hg
      have e1 : srcBlock w.h g.data g.data = fun b => b := by
        funext b
        unfold srcBlock
        rw [if_pos ⟨by rw [hid]; rfl, rfl⟩]; rfl
      rw [e1]
      have hl : InA C a ⟨s, x, y, z, r, k⟩ := inA_nat hat hm hk hx hy hz
      have hval : valA dv a' ⟨s, x, y, z, r, k⟩ = ag.cells x y z r k := by
        have hva : valA dv a ⟨s, x, y, z, r, k⟩ = ag.cells x y z r k := by simp [valA, hat]
        rcases hv _ hl with h | ⟨t', h1, h2, h3⟩
        · rw [h, hva]
        · rw [h3]
          obtain ⟨x', y', z', -, p1, p2, p3, p4⟩ := mem_copyWrites h1
          rw [h2] at p1 p2 p3 p4
          simp only [Nat.cast_inj] at p1 p2 p3
          subst p1 p2 p3
          exact p4
      obtain ⟨g', m', r1, r2, r3, r4⟩ := (hin _).2 hl
      obtain ⟨gg, s1, s2⟩ := hR'.grid r1
      have : w.g s = some gg := s1
      rw [hot] at this; cases this
      obtain ⟨u1, e'', idu, bu, u2, u3, u4, u5, u6, u7, u8⟩ := s2
      rw [hid] at u3; cases u3
      have hgd : g'.dim = ag.dim := by rw [← u1, o1]
      rw [hgd, hsel] at u2; cases u2
      have : some b' = some bu := by rw [← u4]; simp [Heap.set]
      cases this
      refine u7.reads.read hL hm hk hlin ?_
      rw [hgd, gridCont_lin hd hx hy hz]
      simp only [valA, r1, Int.toNat_natCast] at hval
      rw [hval]
    · have e1 : srcBlock w.h other.data g.data = fun _ => bo := by
        funext b
        unfold srcBlock
        rw [if_neg (fun h => heq h.2), o3]
        simp [o4]
      rw [e1]
      refine o7.reads.read hL hm hk hlin ?_
      rw [← hdim, gridCont_lin hd hx hy hz]
  unfold copyList
  conv => rhs; unfold copyWrites
  refine forall2_flatMap' fun z hz => forall2_flatMap' fun y hy => ?_
  rw [objects_eq]
  refine forall2_flatMap fun q hq => forall2_map' fun i hi => ?_
  rw [List.mem_range] at hz hy hi
  obtain ⟨hm, hk⟩ := mem_memKeys hq
  have hAt : (accAt e (genIndex e 0 y z)).At (lin e 0 y z) := by
    have := genIndex_lin e 0 y z
    rw [Nat.cast_zero] at this
    rw [this]; exact accAt_At e _
  have hl : lin e 0 y z + i = lin e i y z := by unfold lin; omega
  have hrd := hread i y z q.1 q.2.2 q.2.1 hm hk hi hy hz
  unfold copyOp
  cases ha : q.2.1.arity with
  | none =>
    have h0 : q.2.2 = 0 := by rw [elems_none ha] at hk; omega
    have hs := Acc.member_row_slot C.L hAt q.1 q.2.1 i (by rw [elems_none ha]; omega)
    rw [hl] at hs
    simp only
    rw [hs]
    rw [h0] at hrd ⊢
    exact Does.ofCopy hL has hm (by rw [elems_none ha]; omega) hi hy hz rfl hrd
  | some _ =>
    have hs := Acc.arrayRef_row_slot C.L hAt q.1 q.2.1 q.2.2 i (hL.elems_pos hm)
    rw [hl] at hs
    simp only
    rw [hs]
    exact Does.ofCopy hL has hm hk hi hy hz rfl hrd

end Throwing
end LFA
