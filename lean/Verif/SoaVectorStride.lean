import Verif.CopyPad

/-
  What `reserve` of soa_vector does if the extents in y and z are not one: it reads the members at the wrong distance.
-/
set_option linter.unusedSectionVars false
set_option linter.unusedVariables false
namespace LFA

section
variable {V : Type} [DecidableEq V] {C : Cfg V}
open World (upd)

theorem loopM_fails_any {σ : Type} {n j : Nat} {f : Nat → σ → Except UB σ} (hj : j < n) (h : ∀ b, ∃ u, f j b = .error u) (b : σ) :
    ∃ u, loopM n f b = .error u := by
  induction n generalizing b with
  | zero => omega
  | succ n ih =>
    rw [loopM_succ]
    by_cases hn : j = n
    · subst hn
      cases h1 : loopM j f b with
      | error u => exact ⟨u, rfl⟩
      | ok b1 => exact h b1
    · obtain ⟨u, hu⟩ := ih (by omega) b
      exact ⟨u, by rw [hu]; rfl⟩

/-- Constructing the first `d` cells of the first row leaves all other bytes alone. -/
theorem ByteKept.constructRow {L : Layout V} (hL : L.WF) {d a : Nat} {e : Ext} (h : Outside L e.prod 0 d a) :
    ByteKept a (LFA.constructFunctor L ⟨d, 1, 1⟩ e) := by
  refine ByteKept.loop fun z hz => ByteKept.loop fun y hy b b' hb => ?_
  rw [walk_eq] at hb
  have hy0 : y = 0 := by dsimp only at hy; omega
  have hz0 : z = 0 := by dsimp only at hz; omega
  subst hy0 hz0
  refine ByteKept.loop (fun j hj => ?_) b b' hb
  have hA : (accAt e (genIndex e 0 (0 : Nat) (0 : Nat) + (j : Int))).At j := by
    simp [accAt, Acc.At, genIndex]
  refine ByteKept.constructMembers hL hA (fun r m k i hm hk h1 h2 => ?_)
  dsimp only at hj
  exact h r m k i hm hk (by omega) (by omega)

theorem read_undef {b : Block V} {p : Nat} (h : b.get p = .undef) (ty : Ty) : ∃ u, b.read (p : Int) ty = .error u := by
  unfold Block.read
  split
  · rw [show b.rd (p : Int).toNat ty = none from by simp only [Int.toNat_natCast, Block.rd, h]]
    exact ⟨_, rfl⟩
  · exact ⟨_, rfl⟩

/-- The number of arrays into which a struct is split. -/
def slots (L : Layout V) : Nat := (L.map Member.elems).sum

/-- Loading at a distance which ends in a gap fails. -/
theorem loadRaw_gap {m0 : Member V} {L' : Layout V} (hL : Layout.WF (m0 :: L')) (h2 : 2 ≤ slots (m0 :: L')) {A : Acc} {n stride : Nat}
    (hn : 0 < n) {src : Block V} (hu : src.get (stride * m0.ty.size) = .undef) (b : Block V) :
    ∃ u, A.loadRaw (m0 :: L') (fun _ => src) n 0 stride b = .error u := by
  have h0 := (hL m0 (by simp)).2
  by_cases hm : 2 ≤ m0.elems
  · refine forEach_fails (fun _ => True) _ 0 0 m0 b rfl (fun _ _ _ _ _ _ _ _ => trivial) (fun b _ => ?_) trivial
    cases ha : m0.arity with
    | none => simp only [Member.elems, ha] at hm; omega
    | some q =>
      simp only [Member.elems, ha] at hm
      refine loopM_fails_any (j := 1) (by omega) (fun b => loopM_fails_any (j := 0) hn (fun b => ?_) b) b
      obtain ⟨u, hu'⟩ := read_undef hu m0.ty
      refine ⟨u, ?_⟩
      rw [show ((offset (m0 :: L') (0 + 0) : Int) * stride + ((stride : Int) * (1 : Nat) + (0 : Nat) + (0 : Nat)) * m0.ty.size) =
        ((stride * m0.ty.size : Nat) : Int) by simp [offset], hu']
      rfl
  · have h1 : m0.elems = 1 := by omega
    cases L' with
    | nil => simp only [slots, List.map_cons, List.map_nil, List.sum_cons, List.sum_nil] at h2; omega
    | cons m1 L'' =>
      have h01 := (hL m1 (by simp)).2
      refine forEach_fails (fun _ => True) _ 0 1 m1 b rfl (fun _ _ _ _ _ _ _ _ => trivial) (fun b _ => ?_) trivial
      obtain ⟨u, hu'⟩ := read_undef hu m1.ty
      have hoff : (offset (m0 :: m1 :: L'') (0 + 1) : Int) * stride = ((stride * m0.ty.size : Nat) : Int) := by
        simp [offset, h1, mul_comm]
      cases ha : m1.arity with
      | none =>
        simp only
        refine loopM_fails_any (j := 0) hn (fun b => ⟨u, ?_⟩) b
        rw [hoff]
        simp only [Nat.cast_zero, add_zero, zero_mul, hu']
        rfl
      | some q =>
        simp only [Member.elems, ha] at h01
        simp only
        refine loopM_fails_any (j := 0) h01 (fun b => loopM_fails_any (j := 0) hn (fun b => ⟨u, ?_⟩) b) b
        rw [hoff]
        simp only [Nat.cast_zero, add_zero, zero_mul, mul_zero, hu']
        rfl

/-- What holds after a call, if it returns or throws. -/
def Ends {S α : Type} (p : α → S → Prop) (q : Exc → S → Prop) : Res S α → Prop
  | .ok a s => p a s
  | .throw e s => q e s
  | .ub _ => True

theorem onBuffer_ends {data : Option Nat} {f : Block V → Except UB (Block V)} {h : Heap V} {i : Nat} (hi : data ≠ some i) :
    Ends (fun _ h' => h'.blk i = h.blk i ∧ h'.next = h.next) (fun _ _ => False) (onBuffer data f h) := by
  unfold onBuffer
  split
  · split
    · exact ⟨rfl, rfl⟩
    · trivial
  · rename_i id
    split
    · trivial
    · split
      · exact ⟨Heap.blk_set_ne _ _ (fun e => hi (by rw [e])), rfl⟩
      · trivial

/-- `destroy_and_deallocate` does not touch the buffers of others, and throws if there is no size for the dimensions. -/
theorem dad_ends {g : Grid} {h : Heap V} {i : Nat} (hi : g.data ≠ some i) :
    Ends (fun _ h' => h'.blk i = h.blk i ∧ h'.next = h.next) (fun e _ => selectSizes C.tr g.dim = .error e)
      (g.destroyAndDeallocate C h) := by
  unfold Grid.destroyAndDeallocate
  split
  · exact ⟨rfl, rfl⟩
  · rename_i id hd
    have hid : i ≠ id := fun e => hi (by rw [hd, e])
    unfold Grid.callbackMut
    cases hs : selectSizes C.tr g.dim with
    | error e => exact rfl
    | ok e =>
      have := onBuffer_ends (f := destroyFunctor C.L g.dim e) (h := h) hi
      simp only
      cases hr : onBuffer g.data (destroyFunctor C.L g.dim e) h with
      | ub u => trivial
      | throw x h' => rw [hr] at this; exact this.elim
      | ok u h' =>
        rw [hr] at this
        simp only [Res.bind]
        cases g.bs with
        | none => trivial
        | some n =>
          simp only [Heap.dealloc]
          split
          · trivial
          · split
            · exact ⟨by simp only [hid, if_false]; exact this.1, this.2⟩
            · trivial

/-- `resize` does not touch the buffers of others; if it throws then there is no size for the dimensions. -/
theorem resize_ends {g : Grid} {h : Heap V} {i : Nat} {d : Ext} (hi : g.data ≠ some i) (hlt : i < h.next) (hd : g.dim ≠ d) :
    Ends (fun _ p => p.2.blk i = h.blk i ∧ i < p.2.next ∧ p.1.data ≠ some i ∧ p.1.data.isSome ∧ p.1.dim = d ∧
        ∃ e, selectSizes C.tr d = .ok e ∧ p.1.ex = some e.x)
      (fun x p => p.1.data = g.data ∧ selectSizes C.tr p.1.dim = .error x ∧ (g.data = none → p.1.dim = d)) (g.resize C d h) := by
  have hd' : ¬ (g.dim.x = d.x ∧ g.dim.y = d.y ∧ g.dim.z = d.z) := by
    rintro ⟨h1, h2, h3⟩
    exact hd (by cases hg : g.dim; cases d; simp_all)
  unfold Grid.resize
  rw [if_neg hd']
  have := dad_ends (C := C) (h := h) hi
  cases hr : g.destroyAndDeallocate C h with
  | ub u => trivial
  | throw x h' =>
    refine ⟨rfl, by rw [hr] at this; exact this, fun hn => ?_⟩
    simp only [Grid.destroyAndDeallocate, hn] at hr
    cases hr
  | ok u h' =>
    rw [hr] at this
    obtain ⟨k1, k2⟩ := this
    simp only [Res.withGrid, Res.bind]
    cases hs : selectSizes C.tr d with
    | error x => exact ⟨rfl, hs, fun _ => rfl⟩
    | ok e =>
      simp only [Heap.alloc, Grid.init, Grid.callbackMut, hs]
      have hne : i ≠ h'.next := by omega
      have hne' : (some h'.next : Option Nat) ≠ some i := fun e => hne (Option.some.inj e).symm
      have := onBuffer_ends (f := constructFunctor C.L d e)
        (h := ⟨h'.next + 1, fun j => if j = h'.next then some (Block.fresh (byteSizeOf C.L e)) else h'.blk j, h'.freed⟩) hne'
      cases hb : onBuffer (some h'.next) (constructFunctor C.L d e)
        ⟨h'.next + 1, fun j => if j = h'.next then some (Block.fresh (byteSizeOf C.L e)) else h'.blk j, h'.freed⟩ with
      | ub u => trivial
      | throw x h'' => rw [hb] at this; exact this.elim
      | ok u h'' =>
        rw [hb] at this
        obtain ⟨k3, k4⟩ := this
        simp only [hne, if_false] at k3
        refine ⟨k3.trans k1, ?_, hne', rfl, rfl, e, rfl, rfl⟩
        show i < h''.next
        rw [k4]
        show i < h'.next + 1
        omega

/-- If an exception leaves a block with a grid whose dimensions have no size, the program is terminated. -/
theorem unwind_ub {ng : Grid} {x e : Exc} {v : SVec} {h : Heap V} (hd : ng.data.isSome) (hs : selectSizes C.tr ng.dim = .error x) :
    unwind C ng e v h = .ub .terminate := by
  obtain ⟨id, hid⟩ := Option.isSome_iff_exists.1 hd
  simp only [unwind, Grid.dtor, Grid.destroyAndDeallocate, hid, Grid.callbackMut, hs, Res.bind]

/-- `reserve` of a vector whose second array of members begins, as seen by `load`, in a gap. -/
theorem reserve_gap {m0 : Member V} {L' : Layout V} (hL : C.L.WF) (hL0 : C.L = m0 :: L') (h2 : 2 ≤ slots C.L) {v : SVec} {h : Heap V}
    {id oex : Nat} {src : Block V} (hex : v.g.ex = some oex) (hid : v.g.data = some id) (hb : h.blk id = some src) (hlt : id < h.next)
    (hn : 0 < v.n) (hu : src.get (oex * m0.ty.size) = .undef) {m : Nat} {em : Ext} (he : selectSizes C.tr ⟨m, 1, 1⟩ = .ok em) :
    ∃ u, v.reserve C m h = .ub u := by
  have hload : ∀ (ng : Grid) (h' : Heap V), ng.data.isSome → h'.blk id = some src →
      ∃ u, (match v.g.ex, v.g.data.bind h'.blk with
        | none, _ => .ub .uninitField
        | _, none => .ub .dangling
        | some oex, some src =>
          match ng.load C [⟨0, 0, 0, v.n⟩] src oex h' with
          | .ub u => .ub u
          | .throw e h => unwind C ng e v h
          | .ok _ h =>
            let p := Grid.swap ng v.g
            match p.1.dtor C h with
            | .ok _ h => .ok () (⟨p.2, v.n⟩, h)
            | .throw _ _ => .ub .terminate
            | .ub u => .ub u : Res (VS V) Unit) = .ub u := by
    intro ng h' hd hb'
    simp only [hex, hid, Option.bind_some, hb', Grid.load, Grid.callbackMut]
    obtain ⟨nid, hnid⟩ := Option.isSome_iff_exists.1 hd
    cases hs : selectSizes C.tr ng.dim with
    | error x => exact ⟨_, unwind_ub hd hs⟩
    | ok e =>
      simp only [onBuffer, hnid]
      cases h'.blk nid with
      | none => exact ⟨_, rfl⟩
      | some b =>
        obtain ⟨u, hu'⟩ := loadRaw_gap (A := accAt e (genIndex e (0 : Nat) (0 : Nat) (0 : Nat))) (hL0 ▸ hL) (hL0 ▸ h2) hn hu b
        simp only [loadFunctor, hL0, hu', Except.bind]
        exact ⟨_, rfl⟩
  unfold SVec.reserve
  have e1 := resize_ends (C := C) (g := ⟨⟨0, 0, 0⟩, none, none, none, none, none⟩) (h := h) (i := id) (d := ⟨m, 1, 1⟩)
    (by simp) hlt (by simp)
  unfold Grid.new
  cases hr : Grid.resize C ⟨⟨0, 0, 0⟩, none, none, none, none, none⟩ ⟨m, 1, 1⟩ h with
  | ub u => exact ⟨u, rfl⟩
  | throw x p =>
    rw [hr] at e1
    have h3 := e1.2.1
    rw [e1.2.2 rfl, he] at h3
    cases h3
  | ok u p =>
    obtain ⟨ng, h1⟩ := p
    rw [hr] at e1
    obtain ⟨k1, k2, k3, k4, k5, e, k6, k7⟩ := e1
    have k7' : ng.ex = some e.x := k7
    simp only [k7']
    by_cases hd : ng.dim = ⟨e.x, 1, 1⟩
    · have : ng.resize C ⟨e.x, 1, 1⟩ h1 = .ok () (ng, h1) := by
        unfold Grid.resize; rw [if_pos (by rw [hd]; exact ⟨rfl, rfl, rfl⟩)]
      simp only [this]
      exact hload ng h1 k4 (k1.trans hb)
    · have e2 := resize_ends (C := C) (h := h1) (i := id) k3 k2 hd
      cases hr2 : ng.resize C ⟨e.x, 1, 1⟩ h1 with
      | ub u => exact ⟨u, rfl⟩
      | throw x p =>
        obtain ⟨ng', h2⟩ := p
        rw [hr2] at e2
        exact ⟨_, unwind_ub (by rw [show ng'.data = ng.data from e2.1]; exact k4) e2.2.1⟩
      | ok u p =>
        obtain ⟨ng', h2⟩ := p
        rw [hr2] at e2
        exact hload ng' h2 e2.2.2.2.1 (e2.1.trans (k1.trans hb))

/-- The buffer of a new vector has a gap behind the first row. -/
theorem new_gap {m0 : Member V} {L' : Layout V} (hL : C.L.WF) (hL0 : C.L = m0 :: L') {w : VecWorld V} {s n : Nat} (hs : w.v s = none)
    (hn : 0 < n) {e : Ext} (he : selectSizes C.tr ⟨n, 1, 1⟩ = .ok e) (hyz : 1 < e.y * e.z) :
    ∃ w1 g b, w.step C (.new s n) = .ok (w1, .unit) ∧ w1.v s = some ⟨g, n⟩ ∧ g.dim = ⟨n, 1, 1⟩ ∧ g.ex = some e.x ∧
      g.data = some w.h.next ∧ w1.h.blk w.h.next = some b ∧ w1.h.next = w.h.next + 1 ∧ b.get (e.x * m0.ty.size) = .undef := by
  have hd := selectSizes_fits he
  have hx : n ≤ e.x := hd.1
  obtain ⟨b', k1, k2, k3⟩ := (Marks.constructFunctor hL hd (c := fun _ _ _ => none)
    (w := gridCont ⟨n, 1, 1⟩ e (Spec.dfltCells C.L m0.dflt))
    (fun r m k i hm hk hi => by
      rw [gridCont_in hd hi]
      simp only [Spec.dfltCells, dfltCell, hm])
    (fun _ _ _ _ _ _ _ _ => rfl)).run (View.fresh C.L e.prod)
  have hm0 : C.L[0]? = some m0 := by rw [hL0]; rfl
  have hw := hL m0 (by rw [hL0]; simp)
  have hP : e.x < e.prod := by
    show e.x < e.x * e.y * e.z
    rw [Nat.mul_assoc]
    exact (Nat.lt_mul_iff_one_lt_right (by omega)).2 hyz
  have hout : Outside C.L e.prod 0 n (e.x * m0.ty.size) := by
    have := outside_of_le (j := 0) hL hm0 hw.2 hw.1 hx hP
    simpa [slot, offset] using this
  have hgap := ByteKept.constructRow hL hout _ _ k1
  refine ⟨⟨(w.h.alloc (byteSizeOf C.L e)).2.set w.h.next b', World.upd w.v s (some ⟨⟨⟨n, 1, 1⟩, some e.x, some e.y, some e.z,
    some (byteSizeOf C.L e), some w.h.next⟩, n⟩)⟩, _, b', ?_, upd_self _ _ _, rfl, rfl, rfl, by simp, rfl, ?_⟩
  · simp [VecWorld.step, hs, SVec.new, Grid.new, Grid.resize, Grid.destroyAndDeallocate, Res.withGrid, Res.bind, he, Heap.alloc,
      Grid.init, Grid.callbackMut, onBuffer, byteSizeOf_eq, k1, VecWorld.ofCtor]
  · rw [hgap]; rfl

end
end LFA
