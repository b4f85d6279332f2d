import Verif.SoaVectorRefine

/-
  What copying leaves alone: bytes outside of the structs which the functors visit, and the number of elements of vectors, which
  never exceeds the extent of the buffer.
-/
set_option linter.unusedSectionVars false
set_option linter.unusedVariables false
namespace LFA

section
variable {V : Type} [DecidableEq V] {C : Cfg V}
open World (upd)

/-- If `f` succeeds then it does not change the byte at `a`. -/
def ByteKept (a : Nat) (f : Block V → Except UB (Block V)) : Prop := ∀ b b', f b = .ok b' → b'.get a = b.get a

theorem ByteKept.bind {a : Nat} {f : Block V → Except UB V} {g : V → Block V → Except UB (Block V)} (h : ∀ v, ByteKept a (g v)) :
    ByteKept a (fun b => (f b).bind fun v => g v b) := by
  intro b b' e
  cases hf : f b with
  | error u => simp only [hf, Except.bind] at e; cases e
  | ok v => simp only [hf, Except.bind] at e; exact h v b b' e

theorem ByteKept.loop {a n : Nat} {f : Nat → Block V → Except UB (Block V)} (h : ∀ j, j < n → ByteKept a (f j)) : ByteKept a (loopM n f) := by
  induction n with
  | zero => intro b b' e; rw [loopM_zero] at e; cases e; rfl
  | succ n ih =>
    intro b b' e
    rw [loopM_succ] at e
    cases h1 : loopM n f b with
    | error u => rw [h1] at e; cases e
    | ok b1 =>
      rw [h1] at e
      rw [h n (by omega) b1 b' e, ih (fun j hj => h j (by omega)) b b1 h1]

theorem ByteKept.forEach {a : Nat} {f : Nat → Member V → Block V → Except UB (Block V)} (L : Layout V) (r0 : Nat)
    (h : ∀ r m, L[r]? = some m → ByteKept a (f (r0 + r) m)) : ByteKept a (forEach f L r0) := by
  induction L generalizing r0 with
  | nil => intro b b' e; cases e; rfl
  | cons m ms ih =>
    intro b b' e
    simp only [LFA.forEach] at e
    cases h1 : f r0 m b with
    | error u => rw [h1] at e; cases e
    | ok b1 =>
      rw [h1] at e
      have k1 := ih (r0 + 1) (fun r m' hm => by
        have := h (r + 1) m' hm
        rw [show r0 + (r + 1) = r0 + 1 + r by omega] at this
        exact this) b1 b' e
      rw [k1, h 0 m rfl b b1 h1]

theorem ByteKept.construct {a p : Nat} {ty : Ty} {v : V} {q : Int} (hq : q = (p : Nat)) (h : a < p ∨ p + ty.size ≤ a) :
    ByteKept a (fun b : Block V => b.construct q ty v) := by
  intro b b' e
  subst hq
  simp only [Block.construct] at e
  split at e
  · split at e
    · cases e; exact Block.get_put_disj _ _ _ _ _ h
    · cases e
  · cases e

theorem ByteKept.assign {a p : Nat} {ty : Ty} {v : V} {q : Int} (hq : q = (p : Nat)) (h : a < p ∨ p + ty.size ≤ a) :
    ByteKept a (fun b : Block V => b.assign q ty v) := by
  intro b b' e
  subst hq
  simp only [Block.assign] at e
  by_cases h1 : b.inB (p : Int) ty.size = true
  · rw [if_pos h1] at e
    by_cases h2 : (if ty.triv = true then b.noNT (p : Int).toNat ty.size else (b.rd (p : Int).toNat ty).isSome) = true
    · rw [if_pos h2] at e
      cases e; exact Block.get_put_disj _ _ _ _ _ h
    · rw [if_neg h2] at e; cases e
  · rw [if_neg h1] at e; cases e

/-- A byte which belongs to none of the structs `i0`, …, `i0 + n - 1`. -/
def Outside (L : Layout V) (P i0 n a : Nat) : Prop :=
  ∀ r m k i, L[r]? = some m → k < m.elems → i0 ≤ i → i < i0 + n →
    a < slot P (offset L r) m.ty.size k i ∨ slot P (offset L r) m.ty.size k i + m.ty.size ≤ a

theorem ByteKept.constructMembers {L : Layout V} (hL : L.WF) {A : Acc} {i a : Nat} (hA : A.At i) (h : Outside L A.ext.prod i 1 a) :
    ByteKept a (A.constructMembers L) := by
  refine ByteKept.forEach L 0 (fun r m hm => ?_)
  rw [Nat.zero_add]
  have h0 := (hL m (List.mem_of_getElem? hm)).2
  cases ha : m.arity with
  | none => exact ByteKept.construct (Acc.member_slot L hA r m 0 h0) (h r m 0 i hm h0 (by omega) (by omega))
  | some n =>
    refine ByteKept.loop fun k hk => ByteKept.construct (Acc.arrayRef_slot L hA r m k h0) (h r m k i hm ?_ (by omega) (by omega))
    simp only [Member.elems, ha]; exact hk

theorem ByteKept.constructFunctor {L : Layout V} (hL : L.WF) {d e a : Nat} (h : Outside L e 0 d a) :
    ByteKept a (constructFunctor L ⟨d, 1, 1⟩ ⟨e, 1, 1⟩) := by
  refine ByteKept.loop fun z hz => ByteKept.loop fun y hy b b' hb => ?_
  rw [walk_eq] at hb
  have hy0 : y = 0 := by dsimp only at hy; omega
  have hz0 : z = 0 := by dsimp only at hz; omega
  subst hy0 hz0
  refine ByteKept.loop (fun j hj => ?_) b b' hb
  have hA : (accAt ⟨e, 1, 1⟩ (genIndex ⟨e, 1, 1⟩ 0 (0 : Nat) (0 : Nat) + (j : Int))).At j := by
    simp [accAt, Acc.At, genIndex]
  refine ByteKept.constructMembers hL hA (fun r m k i hm hk h1 h2 => ?_)
  have : (accAt ⟨e, 1, 1⟩ (genIndex ⟨e, 1, 1⟩ 0 (0 : Nat) (0 : Nat) + (j : Int))).ext.prod = e := prod1 e
  rw [this]
  dsimp only at hj
  exact h r m k i hm hk (by omega) (by omega)

theorem ByteKept.copyMembers {L : Layout V} (hL : L.WF) {A O : Acc} {src : Block V → Block V} {i n a : Nat} (hA : A.At i)
    (h : Outside L A.ext.prod i n a) : ByteKept a (A.copyMembers L O src n) := by
  refine ByteKept.forEach L 0 (fun r m hm => ?_)
  rw [Nat.zero_add]
  have h0 := (hL m (List.mem_of_getElem? hm)).2
  cases ha : m.arity with
  | none =>
    exact ByteKept.loop fun j hj => ByteKept.bind fun v => ByteKept.assign (Acc.member_row_slot L hA r m j h0)
      (h r m 0 (i + j) hm h0 (by omega) (by omega))
  | some q =>
    refine ByteKept.loop fun k hk => ByteKept.loop fun j hj => ByteKept.bind fun v =>
      ByteKept.assign (Acc.arrayRef_row_slot L hA r m k j h0) (h r m k (i + j) hm ?_ (by omega) (by omega))
    simp only [Member.elems, ha]; exact hk

theorem ByteKept.copyFunctor {L : Layout V} (hL : L.WF) {src : Block V → Block V} {d e a : Nat} {es : Ext} (hes : es = ⟨e, 1, 1⟩)
    (h : Outside L e 0 d a) : ByteKept a (copyFunctor L ⟨d, 1, 1⟩ es ⟨e, 1, 1⟩ src) := by
  subst hes
  refine ByteKept.loop fun z hz => ByteKept.loop fun y hy => ?_
  have hy0 : y = 0 := by dsimp only at hy; omega
  have hz0 : z = 0 := by dsimp only at hz; omega
  subst hy0 hz0
  have hA : (accAt ⟨e, 1, 1⟩ (genIndex ⟨e, 1, 1⟩ 0 (0 : Nat) (0 : Nat))).At 0 := by
    simp [accAt, Acc.At, genIndex]
  refine ByteKept.copyMembers hL hA (fun r m k i hm hk h1 h2 => ?_)
  have : (accAt ⟨e, 1, 1⟩ (genIndex ⟨e, 1, 1⟩ 0 (0 : Nat) (0 : Nat))).ext.prod = e := prod1 e
  rw [this]
  exact h r m k i hm hk h1 h2

/-- The bytes of struct `i` are outside of the structs before it. -/
theorem outside_of_le {L : Layout V} (hL : L.WF) {P d i r k j : Nat} {m : Member V} (hm : L[r]? = some m) (hk : k < m.elems)
    (hj : j < m.ty.size) (hd : d ≤ i) (hi : i < P) : Outside L P 0 d (slot P (offset L r) m.ty.size k i + j) := by
  intro r' m' k' i' hm' hk' h1 h2
  have := slot_disjoint hm hm' hk hk' hi (show i' < P by omega) (fun h => by omega)
  unfold Block.Disj at this
  omega

/-- The number of elements of a vector never exceeds the extent of its buffer. -/
theorem vec_fit_step (hL : C.L.WF) (h1 : OneD C.tr) (dv : V) {w : VecWorld V} {σ0 σ1 : VecSpec.State V} {op : VecOp V} {out : ArrOut V}
    (hR : VR C w σ0) (hst : VecSpec.step C dv σ0 op = some (σ1, out)) (h0 : ∀ s a, σ0 s = some a → a.n ≤ a.ext) :
    ∀ s a, σ1 s = some a → a.n ≤ a.ext := by
  have dimext : ∀ s a, σ0 s = some a → a.dim ≤ a.ext := fun s a h => by
    obtain ⟨g, _, hok⟩ := hR.vec h
    exact hok.fits.1
  have updle : ∀ (s : Nat) (x : Option (AVec V)), (∀ a, x = some a → a.n ≤ a.ext) →
      ∀ t a, World.upd σ0 s x t = some a → a.n ≤ a.ext := by
    intro s x hx t a ht
    by_cases hts : t = s
    · subst hts; rw [upd_self] at ht; exact hx a ht
    · rw [upd_ne _ _ hts] at ht; exact h0 t a ht
  have onle : ∀ (s : Nat) (f : AVec V → Option (AVec V × ArrOut V)), VecSpec.onVec σ0 s f = some (σ1, out) →
      (∀ a a' o, f a = some (a', o) → a.n ≤ a.ext → a.dim ≤ a.ext → a'.n ≤ a'.ext) → ∀ t a, σ1 t = some a → a.n ≤ a.ext := by
    intro s f hf hle
    unfold VecSpec.onVec at hf
    cases hs : σ0 s with
    | none => rw [hs] at hf; cases hf
    | some a =>
      rw [hs] at hf
      simp only [Option.map_eq_some_iff, Prod.mk.injEq] at hf
      obtain ⟨⟨a', o⟩, hfa, hu, _⟩ := hf
      rw [← hu]
      exact updle s _ (fun b hb => by cases hb; exact hle a a' o hfa (h0 s a hs) (dimext s a hs))
  have reserve_le : ∀ (a a' : AVec V) (m : Nat) (o : ArrOut V), VecSpec.reserve C dv a m = some (a', o) → a.n ≤ a.ext →
      a'.n ≤ a'.ext ∧ (o = .unit → m ≤ a'.ext) := by
    intro a a' m o ha hle
    unfold VecSpec.reserve at ha
    cases hsel : selectSizes C.tr ⟨m, 1, 1⟩ with
    | error e => rw [hsel] at ha; cases ha; exact ⟨hle, fun h => (nomatch h)⟩
    | ok e =>
      rw [hsel] at ha
      simp only at ha
      split at ha
      · rename_i hc; cases ha; exact ⟨hc.2.1, fun _ => (selectSizes_fits hsel).1⟩
      · cases ha
  have create_le : ∀ (s n : Nat) (c : Cell V), VecSpec.create C σ0 s n c = some (σ1, out) →
      ∀ t a, σ1 t = some a → a.n ≤ a.ext := by
    intro s n c hc
    unfold VecSpec.create at hc
    split at hc
    · cases hc
    · split at hc
      · cases hc; exact h0
      · rename_i hsel
        cases hc; exact updle s _ (fun b hb => by cases hb; exact (selectSizes_fits hsel).1)
  cases op with
  | new s n => exact create_le s n _ hst
  | newFill s n c => exact create_le s n c hst
  | copy s t =>
    simp only [VecSpec.step] at hst
    split at hst
    · rename_i o _ ho
      cases hst; exact updle s _ (fun b hb => by cases hb; exact h0 t o ho)
    · cases hst
  | assign s t =>
    simp only [VecSpec.step] at hst
    split at hst
    · rename_i a o ha ho
      cases hst
      refine updle s _ (fun b hb => ?_)
      split at hb
      · rename_i hdim
        cases hb
        obtain ⟨_, _, ka⟩ := hR.vec ha
        obtain ⟨_, _, ko⟩ := hR.vec ho
        have hsel := ka.sel
        rw [hdim, ko.sel] at hsel
        injection hsel with hsel; injection hsel with hsel
        show o.n ≤ a.ext
        rw [← hsel]; exact h0 t o ho
      · cases hb; exact h0 t o ho
    · cases hst
  | destroy s =>
    simp only [VecSpec.step] at hst
    split at hst
    · cases hst; exact updle s _ (fun b hb => by cases hb)
    · cases hst
  | set s i c =>
    refine onle s _ hst (fun a a' o hf hle _ => ?_)
    split at hf
    · cases hf; exact hle
    · cases hf
  | get s i x =>
    refine onle s _ hst (fun a a' o hf hle _ => ?_)
    simp only [Option.map_eq_some_iff, Prod.mk.injEq] at hf
    obtain ⟨c, _, rfl, _⟩ := hf; exact hle
  | push s c =>
    refine onle s _ hst (fun a a' o hf hle _ => ?_)
    unfold VecSpec.push at hf
    split at hf
    · split at hf
      · split at hf
        · rename_i hw; cases hf; exact hw.1
        · cases hf
      · split at hf
        · exact (reserve_le a a' _ o hf hle).1
        · cases hf; exact hle
    · cases hf
  | pop s td =>
    refine onle s _ hst (fun a a' o hf hle _ => ?_)
    split at hf
    · cases hf; show a.n - 1 ≤ a.ext; omega
    · cases hf
  | clear s => exact onle s _ hst (fun a a' o hf hle _ => by cases hf; exact Nat.zero_le _)
  | resize s m =>
    refine onle s _ hst (fun a a' o hf hle hde => ?_)
    simp only [VecSpec.resize] at hf
    split at hf
    · cases hres : VecSpec.reserve C dv a m with
      | none => rw [hres] at hf; cases hf
      | some q =>
        obtain ⟨b, ob⟩ := q
        have hb := reserve_le a b m ob hres hle
        rw [hres] at hf
        cases ob <;> simp only [Option.some.injEq, Prod.mk.injEq] at hf <;> obtain ⟨rfl, _⟩ := hf
        · exact hb.2 rfl
        all_goals exact hb.1
    · rename_i hm; cases hf; show m ≤ a.ext; omega
  | reserve s m => exact onle s _ hst (fun a a' o hf hle _ => (reserve_le a a' m o hf hle).1)
  | size s => exact onle s _ hst (fun a a' o hf hle _ => by cases hf; exact hle)
  | capacity s => exact onle s _ hst (fun a a' o hf hle _ => by cases hf; exact hle)
  | empty s => exact onle s _ hst (fun a a' o hf hle _ => by cases hf; exact hle)
  | poke s x X r k v =>
    refine onle s _ hst (fun a a' o hf hle _ => ?_)
    split at hf
    · split at hf
      · cases hf; exact hle
      · cases hf
    · cases hf
  | peek s x X r k =>
    refine onle s _ hst (fun a a' o hf hle _ => ?_)
    split at hf
    · split at hf
      · cases hf; exact hle
      · cases hf
    · cases hf

theorem vec_fit_run (hL : C.L.WF) (h1 : OneD C.tr) (dv : V) (ops : List (VecOp V)) :
    ∀ {w : VecWorld V} {σ σ' : VecSpec.State V} {outs : List (ArrOut V)}, VR C w σ → (∀ s a, σ s = some a → a.n ≤ a.ext) →
      VecSpec.run C dv σ ops = some (σ', outs) →
      ∃ w', w.run C ops = .ok (w', outs) ∧ VR C w' σ' ∧ ∀ s a, σ' s = some a → a.n ≤ a.ext := by
  induction ops with
  | nil => intro w σ σ' outs hR h0 h; cases h; exact ⟨w, rfl, hR, h0⟩
  | cons op ops ih =>
    intro w σ σ' outs hR h0 h
    simp only [VecSpec.run] at h
    cases h2 : VecSpec.step C dv σ op with
    | none => rw [h2] at h; cases h
    | some p =>
      obtain ⟨σ1, o⟩ := p
      rw [h2] at h
      simp only at h
      cases h3 : VecSpec.run C dv σ1 ops with
      | none => rw [h3] at h; cases h
      | some q =>
        obtain ⟨σ2, os⟩ := q
        rw [h3] at h
        cases h
        obtain ⟨w1, k1, k2⟩ := vec_step_refines hL h1 dv hR op h2
        obtain ⟨w2, k3, k4⟩ := ih k2 (vec_fit_step hL h1 dv hR h2 h0) h3
        exact ⟨w2, by simp only [VecWorld.run, k1, k3], k4⟩

/-- The buffer of a copied vector: nothing has been written to the bytes of the structs behind the dimension. -/
theorem copy_pad_undef (hL : C.L.WF) {w w' : VecWorld V} {σ : VecSpec.State V} (hR : VR C w σ) {s t : Nat} {o : AVec V}
    (hσs : σ s = none) (hσt : σ t = some o) {out : ArrOut V} (hstep : w.step C (.copy s t) = .ok (w', out)) :
    ∃ g id b, w'.v s = some ⟨g, o.n⟩ ∧ g.dim = ⟨o.dim, 1, 1⟩ ∧ g.data = some id ∧ w'.h.blk id = some b ∧
      ∀ r m k i j, C.L[r]? = some m → k < m.elems → o.dim ≤ i → i < o.ext → j < m.ty.size →
        b.get (slot o.ext (offset C.L r) m.ty.size k i + j) = .undef := by
  have hn := hR.absent hσs
  obtain ⟨og, ho1, ho2⟩ := hR.vec hσt
  obtain ⟨id, b0, q1, q2, _⟩ := ho2.buf
  have hid := hR.data_lt ho1 q1
  have hne : ¬ (og.data.isSome = true ∧ og.data = some w.h.next) := by
    rw [q1]; rintro ⟨_, h⟩; cases h; omega
  simp only [VecWorld.step, hn, VecWorld.withV, ho1, SVec.copyCtor, Grid.copyCtor, ho2.bs, Heap.alloc, Grid.init, Grid.callbackMut,
    ho2.dim, ho2.sel, onBuffer, if_true] at hstep
  cases hc : constructFunctor C.L ⟨o.dim, 1, 1⟩ ⟨o.ext, 1, 1⟩ (Block.fresh (byteSizeOf C.L ⟨o.ext, 1, 1⟩)) with
  | error u => rw [hc] at hstep; cases hstep
  | ok b1 =>
    rw [hc] at hstep
    have hid' : id ≠ w.h.next := by omega
    have hcopy : ∃ b2, copyFunctor C.L ⟨o.dim, 1, 1⟩ ⟨o.ext, 1, 1⟩ ⟨o.ext, 1, 1⟩ (fun _ => b0) b1 = .ok b2 ∧
        w'.v = upd w.v s (some ⟨⟨⟨o.dim, 1, 1⟩, none, none, none, some (byteSizeOf C.L ⟨o.ext, 1, 1⟩), some w.h.next⟩, o.n⟩) ∧
        w'.h.blk w.h.next = some b2 := by
      cases hk : copyFunctor C.L ⟨o.dim, 1, 1⟩ ⟨o.ext, 1, 1⟩ ⟨o.ext, 1, 1⟩ (fun _ => b0) b1 with
      | error u =>
        exfalso
        cases has : C.asym <;>
        simp [Res.withGrid, Res.bind, Grid.copyIn, Grid.dualCallback, ho2.dim, ho2.sel, has, q1, Heap.set, hid', q2, onBuffer,
          srcBlock, hk, VecWorld.ofCtor] at hstep
      | ok b2 =>
        refine ⟨b2, rfl, ?_⟩
        cases has : C.asym <;>
        (simp [Res.withGrid, Res.bind, Grid.copyIn, Grid.dualCallback, ho2.dim, ho2.sel, has, q1, Heap.set, hid', q2, onBuffer,
          srcBlock, hk, VecWorld.ofCtor] at hstep
         obtain ⟨rfl, _⟩ := hstep
         exact ⟨rfl, by simp⟩)
    obtain ⟨b2, k1, k2, k3⟩ := hcopy
    refine ⟨_, w.h.next, b2, by rw [k2, upd_self], rfl, rfl, k3, fun r m k i j hm hk hd hi hj => ?_⟩
    have hout := outside_of_le (j := j) hL hm hk hj hd hi
    rw [ByteKept.copyFunctor hL rfl hout b1 b2 k1, ByteKept.constructFunctor hL hout _ b1 hc]
    rfl

/-- Reading such a struct fails. -/
theorem get_undef {L : Layout V} {m : Member V} {L' : Layout V} (hL : L.WF) (hLm : L = m :: L') {e i : Nat} {b : Block V}
    (hb : b.get (slot e (offset L 0) m.ty.size 0 i) = .undef) (t : Cell V) :
    ∃ u, getFunctor L ⟨e, 1, 1⟩ b i 0 0 1 [t] = .error u := by
  have hm : L[0]? = some m := by rw [hLm]; rfl
  have h0 := (hL m (by rw [hLm]; simp)).2
  have hA : (accAt ⟨e, 1, 1⟩ (genIndex ⟨e, 1, 1⟩ (i : Nat) (0 : Nat) (0 : Nat) + ((0 : Nat) : Int))).At i := by
    simp [accAt, Acc.At, genIndex]
  have hp : (accAt ⟨e, 1, 1⟩ (genIndex ⟨e, 1, 1⟩ (i : Nat) (0 : Nat) (0 : Nat) + ((0 : Nat) : Int))).ext.prod = e := prod1 e
  unfold getFunctor
  rw [walk_eq]
  have hread : ∀ q : Int, q = (slot e (offset L 0) m.ty.size 0 i : Nat) → ∃ u, b.read q m.ty = .error u := by
    rintro q rfl
    unfold Block.read
    split
    · rw [show b.rd ((slot e (offset L 0) m.ty.size 0 i : Nat) : Int).toNat m.ty = none from by
        simp only [Int.toNat_natCast, Block.rd, hb]]
      exact ⟨_, rfl⟩
    · exact ⟨_, rfl⟩
  have hms := Acc.member_slot L hA 0 m 0 h0
  rw [hp] at hms
  have hcell : ∃ u, (accAt ⟨e, 1, 1⟩ (genIndex ⟨e, 1, 1⟩ (i : Nat) (0 : Nat) (0 : Nat) + ((0 : Nat) : Int))).getCell L b t = .error u := by
    unfold Acc.getCell
    rw [show (∀ f : Nat → Member V → Cell V → Except UB (Cell V), forEach f L 0 t = (f 0 m t).bind (forEach f L' 1)) from
      fun f => by rw [hLm]; rfl]
    cases ha : m.arity with
    | none =>
      obtain ⟨u, hu⟩ := hread _ hms
      exact ⟨u, by simp only [hu]; rfl⟩
    | some n =>
      have hn : 0 < n := by simpa only [Member.elems, ha] using h0
      obtain ⟨n', rfl⟩ : ∃ n', n = n' + 1 := ⟨n - 1, by omega⟩
      obtain ⟨u, hu⟩ := hread _ hms
      refine ⟨u, ?_⟩
      have key : ∀ (A : Acc) (q : Nat), b.read (A.member L 0 m 0) m.ty = .error u → loopM (q + 1) (fun k (cell : Cell V) =>
          (b.read (A.member L 0 m 0 + (A.ext.prod : Int) * k * m.ty.size) m.ty).map (fun v => cell.set 0 k v)) t = .error u := by
        intro A q hA
        induction q with
        | zero =>
          rw [loopM_succ, loopM_zero]
          simp only [Except.bind, Nat.cast_zero, Int.mul_zero, Int.zero_mul, Int.add_zero]
          rw [hA]; rfl
        | succ q ih => rw [loopM_succ, ih]; rfl
      dsimp only
      rw [key _ n' hu]; rfl
  obtain ⟨u, hu⟩ := hcell
  refine ⟨u, ?_⟩
  rw [loopM_succ, loopM_zero]
  simp only [Except.bind, List.getElem?_cons_zero]
  rw [hu]; rfl

/-- A loop over members in which one member fails. -/
theorem forEach_fails {f : Nat → Member V → Block V → Except UB (Block V)} (P : Block V → Prop) (L : Layout V) :
    ∀ (r0 r : Nat) (m : Member V) (b : Block V), L[r]? = some m →
      (∀ r' m', r' < r → L[r']? = some m' → ∀ b b', P b → f (r0 + r') m' b = .ok b' → P b') →
      (∀ b, P b → ∃ u, f (r0 + r) m b = .error u) → P b → ∃ u, forEach f L r0 b = .error u := by
  induction L with
  | nil => intro r0 r m b hm; cases hm
  | cons m0 ms ih =>
    intro r0 r m b hm hkeep hfail hP
    simp only [LFA.forEach]
    cases r with
    | zero =>
      cases hm
      obtain ⟨u, hu⟩ := hfail b hP
      rw [Nat.add_zero] at hu
      exact ⟨u, by rw [hu]; rfl⟩
    | succ r =>
      cases h1 : f r0 m0 b with
      | error u => exact ⟨u, rfl⟩
      | ok b1 =>
        refine ih (r0 + 1) r m b1 hm (fun r' m' hr' hm' b b' hb hf => ?_) (fun b hb => ?_)
          (hkeep 0 m0 (by omega) rfl b b1 hP h1)
        · exact hkeep (r' + 1) m' (by omega) hm' b b' hb (by rw [show r0 + (r' + 1) = r0 + 1 + r' by omega]; exact hf)
        · obtain ⟨u, hu⟩ := hfail b hb
          exact ⟨u, by rw [show r0 + 1 + r = r0 + (r + 1) by omega]; exact hu⟩

/-- Assigning to an object of non-trivial type which does not exist. -/
theorem assign_fails {b : Block V} {p : Nat} {ty : Ty} (hnt : ty.triv = false) (hs : 0 < ty.size) (hb : b.NoNT p ty.size) (v : V) :
    ∃ u, b.assign (p : Nat) ty v = .error u := by
  have hrd : b.rd p ty = none := by
    unfold Block.rd
    cases hg : b.get p with
    | undef => rfl
    | frag v' ty' i =>
      simp only
      rw [if_neg]
      intro hall
      have h0 := (List.all_eq_true.1 hall) 0 (by simpa using hs)
      simp only [Nat.add_zero, decide_eq_true_eq] at h0
      have hn := hb 0 hs
      rw [Nat.add_zero, h0] at hn
      simp only [MByte.nonTriv, hnt] at hn
      cases hn
  unfold Block.assign
  split
  · rw [if_neg]
    · exact ⟨_, rfl⟩
    · simp [hnt, hrd]
  · exact ⟨_, rfl⟩

/-- Writing a struct to a place where one of its non-trivial members has not been constructed. -/
theorem set_fails {L : Layout V} (hL : L.WF) {r : Nat} {m : Member V} (hm : L[r]? = some m) (hnt : m.ty.triv = false) {e i : Nat}
    (hi : i < e) {b : Block V} (hb : b.NoNT (slot e (offset L r) m.ty.size 0 i) m.ty.size) (c : Cell V) :
    ∃ u, setFunctor L ⟨e, 1, 1⟩ 1 [c] i 0 0 1 b = .error u := by
  unfold setFunctor
  rw [walk_eq]
  have hcell : ∀ A : Acc, A.At i → A.ext.prod = e → ∃ u, A.setCell L c b = .error u := by
    intro A hA hp
    refine forEach_fails (fun b => b.NoNT (slot e (offset L r) m.ty.size 0 i) m.ty.size) L 0 r m b hm ?_ ?_ hb
    · intro r' m' hr' hm' b b' hP hok j hj
      have h0 := (hL m' (List.mem_of_getElem? hm')).2
      rw [Nat.zero_add] at hok
      have hkeep : ∀ k, k < m'.elems → slot e (offset L r) m.ty.size 0 i + j < slot e (offset L r') m'.ty.size k i ∨
          slot e (offset L r') m'.ty.size k i + m'.ty.size ≤ slot e (offset L r) m.ty.size 0 i + j := by
        intro k hk
        have := slot_disjoint hm hm' (hL m (List.mem_of_getElem? hm)).2 hk hi hi (fun h => by omega)
        unfold Block.Disj at this
        omega
      have key : ByteKept (slot e (offset L r) m.ty.size 0 i + j) (fun b => match m'.arity with
          | none => b.assign (A.member L r' m' 0) m'.ty (c r' 0)
          | some n => loopM n (fun k b => b.assign (A.member L r' m' 0 + (A.ext.prod : Int) * k * m'.ty.size) m'.ty (c r' k)) b) := by
        have hms := Acc.member_slot L hA r' m' 0 h0
        rw [hp] at hms
        cases ha : m'.arity with
        | none => exact ByteKept.assign hms (hkeep 0 h0)
        | some n =>
          refine ByteKept.loop fun k hk => ByteKept.assign (p := slot e (offset L r') m'.ty.size k i) ?_
            (hkeep k (by simp only [Member.elems, ha]; exact hk))
          rw [hms, hp]
          unfold slot
          push_cast; ring
      rw [key b b' hok]
      exact hP j hj
    · intro b hP
      rw [Nat.zero_add]
      have hwf := hL m (List.mem_of_getElem? hm)
      have hms := Acc.member_slot L hA r m 0 hwf.2
      rw [hp] at hms
      cases ha : m.arity with
      | none =>
        dsimp only
        rw [hms]
        exact assign_fails hnt hwf.1 hP _
      | some n =>
        have hn : 0 < n := by have := hwf.2; simpa only [Member.elems, ha] using this
        obtain ⟨n', rfl⟩ : ∃ n', n = n' + 1 := ⟨n - 1, by omega⟩
        obtain ⟨u, hu⟩ := assign_fails hnt hwf.1 hP (c r 0)
        refine ⟨u, ?_⟩
        dsimp only
        clear ha hn
        induction n' with
        | zero =>
          rw [loopM_succ, loopM_zero]
          simp only [Except.bind, Nat.cast_zero, Int.mul_zero, Int.zero_mul, Int.add_zero]
          rw [hms]; exact hu
        | succ q ih => rw [loopM_succ, ih]; rfl
  obtain ⟨u, hu⟩ := hcell (accAt ⟨e, 1, 1⟩ (genIndex ⟨e, 1, 1⟩ (i : Nat) (0 : Nat) (0 : Nat) + ((0 : Nat) : Int)))
    (by simp [accAt, Acc.At, genIndex]) (prod1 e)
  refine ⟨u, ?_⟩
  rw [loopM_succ, loopM_zero]
  exact hu

/-- Without copy construction all vectors know their extent. -/
theorem vec_known_step (dv : V) {σ0 σ1 : VecSpec.State V} {op : VecOp V} {out : ArrOut V} (hop : ∀ s t, op ≠ .copy s t)
    (hst : VecSpec.step C dv σ0 op = some (σ1, out)) (h0 : ∀ s a, σ0 s = some a → a.known = true) :
    ∀ s a, σ1 s = some a → a.known = true := by
  have updle : ∀ (s : Nat) (x : Option (AVec V)), (∀ a, x = some a → a.known = true) →
      ∀ t a, World.upd σ0 s x t = some a → a.known = true := by
    intro s x hx t a ht
    by_cases hts : t = s
    · subst hts; rw [upd_self] at ht; exact hx a ht
    · rw [upd_ne _ _ hts] at ht; exact h0 t a ht
  have onle : ∀ (s : Nat) (f : AVec V → Option (AVec V × ArrOut V)), VecSpec.onVec σ0 s f = some (σ1, out) →
      (∀ a a' o, f a = some (a', o) → a.known = true → a'.known = true) → ∀ t a, σ1 t = some a → a.known = true := by
    intro s f hf hle
    unfold VecSpec.onVec at hf
    cases hs : σ0 s with
    | none => rw [hs] at hf; cases hf
    | some a =>
      rw [hs] at hf
      simp only [Option.map_eq_some_iff, Prod.mk.injEq] at hf
      obtain ⟨⟨a', o⟩, hfa, hu, _⟩ := hf
      rw [← hu]
      exact updle s _ (fun b hb => by cases hb; exact hle a a' o hfa (h0 s a hs))
  have reserve_le : ∀ (a a' : AVec V) (m : Nat) (o : ArrOut V), VecSpec.reserve C dv a m = some (a', o) → a.known = true →
      a'.known = true := by
    intro a a' m o ha hle
    unfold VecSpec.reserve at ha
    split at ha
    · cases ha; exact hle
    · split at ha
      · cases ha; rfl
      · cases ha
  have create_le : ∀ (s n : Nat) (c : Cell V), VecSpec.create C σ0 s n c = some (σ1, out) →
      ∀ t a, σ1 t = some a → a.known = true := by
    intro s n c hc
    unfold VecSpec.create at hc
    split at hc
    · cases hc
    · split at hc
      · cases hc; exact h0
      · cases hc; exact updle s _ (fun b hb => by cases hb; rfl)
  cases op with
  | new s n => exact create_le s n _ hst
  | newFill s n c => exact create_le s n c hst
  | copy s t => exact absurd rfl (hop s t)
  | assign s t =>
    simp only [VecSpec.step] at hst
    split at hst
    · rename_i a o ha ho
      cases hst
      refine updle s _ (fun b hb => ?_)
      split at hb
      · cases hb; exact h0 s a ha
      · cases hb; rfl
    · cases hst
  | destroy s =>
    simp only [VecSpec.step] at hst
    split at hst
    · cases hst; exact updle s _ (fun b hb => by cases hb)
    · cases hst
  | push s c =>
    refine onle s _ hst (fun a a' o hf hle => ?_)
    unfold VecSpec.push at hf
    rw [if_pos hle] at hf
    split at hf
    · rename_i a1 h1
      have hk1 : a1.known = true := by
        split at h1
        · exact reserve_le _ _ _ _ h1 hle
        · cases h1; exact hle
      split at hf
      · cases hf; exact hk1
      · cases hf
    · split at hf
      · exact reserve_le _ _ _ _ hf hle
      · cases hf; exact hle
  | resize s m =>
    refine onle s _ hst (fun a a' o hf hle => ?_)
    simp only [VecSpec.resize] at hf
    split at hf
    · cases hres : VecSpec.reserve C dv a m with
      | none => rw [hres] at hf; cases hf
      | some q =>
        obtain ⟨b, ob⟩ := q
        have hb := reserve_le a b m ob hres hle
        rw [hres] at hf
        cases ob <;> simp only [Option.some.injEq, Prod.mk.injEq] at hf <;> obtain ⟨rfl, _⟩ := hf <;> exact hb
    · cases hf; exact hle
  | reserve s m => exact onle s _ hst (fun a a' o hf hle => reserve_le a a' m o hf hle)
  | clear s => exact onle s _ hst (fun a a' o hf hle => by cases hf; exact hle)
  | size s => exact onle s _ hst (fun a a' o hf hle => by cases hf; exact hle)
  | capacity s => exact onle s _ hst (fun a a' o hf hle => by cases hf; exact hle)
  | empty s => exact onle s _ hst (fun a a' o hf hle => by cases hf; exact hle)
  | get s i x =>
    refine onle s _ hst (fun a a' o hf hle => ?_)
    simp only [Option.map_eq_some_iff, Prod.mk.injEq] at hf
    obtain ⟨c, _, rfl, _⟩ := hf; exact hle
  | set s i c =>
    refine onle s _ hst (fun a a' o hf hle => ?_)
    split at hf
    · cases hf; exact hle
    · cases hf
  | pop s td =>
    refine onle s _ hst (fun a a' o hf hle => ?_)
    split at hf
    · cases hf; exact hle
    · cases hf
  | poke s x X r k v =>
    refine onle s _ hst (fun a a' o hf hle => ?_)
    split at hf
    · split at hf
      · cases hf; exact hle
      · cases hf
    · cases hf
  | peek s x X r k =>
    refine onle s _ hst (fun a a' o hf hle => ?_)
    split at hf
    · split at hf
      · cases hf; exact hle
      · cases hf
    · cases hf

theorem vec_known_run (dv : V) (ops : List (VecOp V)) (hop : ∀ s t, VecOp.copy s t ∉ ops) :
    ∀ {σ σ' : VecSpec.State V} {outs : List (ArrOut V)}, (∀ s a, σ s = some a → a.known = true) →
      VecSpec.run C dv σ ops = some (σ', outs) → ∀ s a, σ' s = some a → a.known = true := by
  induction ops with
  | nil => intro σ σ' outs h0 h; cases h; exact h0
  | cons op ops ih =>
    intro σ σ' outs h0 h
    simp only [VecSpec.run] at h
    cases h2 : VecSpec.step C dv σ op with
    | none => rw [h2] at h; cases h
    | some p =>
      obtain ⟨σ1, o⟩ := p
      rw [h2] at h
      simp only at h
      cases h3 : VecSpec.run C dv σ1 ops with
      | none => rw [h3] at h; cases h
      | some q =>
        rw [h3] at h
        cases h
        exact ih (fun s t hc => hop s t (List.mem_cons_of_mem _ hc))
          (vec_known_step dv (fun s t hc => hop s t (by rw [hc]; exact List.mem_cons_self)) h2 h0) h3

theorem assign_size {b b' : Block V} {q : Int} {ty : Ty} {v : V} (h : b.assign q ty v = .ok b') : b'.size = b.size := by
  simp only [Block.assign] at h
  by_cases h1 : b.inB q ty.size = true
  · rw [if_pos h1] at h
    by_cases h2 : (if ty.triv = true then b.noNT q.toNat ty.size else (b.rd q.toNat ty).isSome) = true
    · rw [if_pos h2] at h; cases h; rfl
    · rw [if_neg h2] at h; cases h
  · rw [if_neg h1] at h; cases h

theorem loopM_size {n : Nat} {f : Nat → Block V → Except UB (Block V)} (hf : ∀ j b b', f j b = .ok b' → b'.size = b.size) :
    ∀ b b', loopM n f b = .ok b' → b'.size = b.size := by
  induction n with
  | zero => intro b b' e; cases e; rfl
  | succ n ih =>
    intro b b' e
    rw [loopM_succ] at e
    cases h1 : loopM n f b with
    | error u => rw [h1] at e; cases e
    | ok b1 => rw [h1] at e; rw [hf n b1 b' e, ih b b1 h1]

/-- Writing a struct right behind the last one: the last array element of the last member is out of bounds. -/
theorem set_behind {L : Layout V} (hL : L.WF) (hne : L ≠ []) {e : Nat} {b : Block V} (hb : b.size = aggSize L * e) (c : Cell V) :
    ∃ u, setFunctor L ⟨e, 1, 1⟩ 1 [c] e 0 0 1 b = .error u := by
  obtain ⟨q, hq⟩ : ∃ q, L.length = q + 1 := ⟨L.length - 1, by have := List.length_pos_iff.2 hne; omega⟩
  obtain ⟨m, hm⟩ : ∃ m, L[q]? = some m := ⟨_, List.getElem?_eq_getElem (by omega)⟩
  have hwf := hL m (List.mem_of_getElem? hm)
  have hagg : aggSize L = offset L q + m.ty.size * m.elems := by
    unfold aggSize
    rw [hq, offset, hm]
  have hoob : ∀ (b : Block V) (k : Nat) (p : Int) (v : V), b.size = aggSize L * e → k + 1 = m.elems →
      p = (slot e (offset L q) m.ty.size k e : Nat) → ∃ u, b.assign p m.ty v = .error u := by
    intro b k p v hb hk hp
    subst hp
    unfold Block.assign
    rw [if_neg]
    · exact ⟨_, rfl⟩
    · unfold Block.inB
      simp only [Bool.and_eq_true, decide_eq_true_eq, not_and]
      intro _
      rw [hb, hagg, ← hk]
      unfold slot
      have : (e * (m.ty.size * k + offset L q) + e * m.ty.size : Nat) = (offset L q + m.ty.size * (k + 1)) * e := by ring
      rw [this]
      have := hwf.1
      omega
  unfold setFunctor
  rw [walk_eq]
  have hcell : ∀ A : Acc, A.At e → A.ext.prod = e → ∃ u, A.setCell L c b = .error u := by
    intro A hA hp
    refine forEach_fails (fun b => b.size = aggSize L * e) L 0 q m b hm ?_ ?_ hb
    · intro r' m' hr' hm' b b' hP hok
      rw [Nat.zero_add] at hok
      rw [← hP]
      cases ha : m'.arity with
      | none => rw [ha] at hok; exact assign_size hok
      | some n => rw [ha] at hok; exact loopM_size (fun j b b' h => assign_size h) b b' hok
    · intro b hP
      rw [Nat.zero_add]
      have hms := Acc.member_slot L hA q m 0 hwf.2
      rw [hp] at hms
      cases ha : m.arity with
      | none => exact hoob b 0 _ _ hP (by simp [Member.elems, ha]) hms
      | some n =>
        have hn : m.elems = n := by simp [Member.elems, ha]
        obtain ⟨n', rfl⟩ : ∃ n', n = n' + 1 := ⟨n - 1, by have := hwf.2; omega⟩
        dsimp only
        rw [loopM_succ]
        cases hlo : loopM n' (fun k b => b.assign (A.member L q m 0 + (A.ext.prod : Int) * k * m.ty.size) m.ty (c q k)) b with
        | error u => exact ⟨u, rfl⟩
        | ok b1 =>
          refine hoob b1 n' _ _ ?_ hn.symm ?_
          · rw [loopM_size (fun j b b' h => assign_size h) b b1 hlo]; exact hP
          · rw [hms, hp]
            unfold slot
            push_cast; ring
  obtain ⟨u, hu⟩ := hcell (accAt ⟨e, 1, 1⟩ (genIndex ⟨e, 1, 1⟩ (e : Nat) (0 : Nat) (0 : Nat) + ((0 : Nat) : Int)))
    (by simp [accAt, Acc.At, genIndex]) (prod1 e)
  refine ⟨u, ?_⟩
  rw [loopM_succ, loopM_zero]
  exact hu

end
end LFA
