import Verif.Props.ThrowingVector

/-
  C68: what goes wrong if constructors of members of soa_vectors throw.
-/
set_option linter.unusedSectionVars false
set_option linter.unusedVariables false
namespace LFA.Props
open LFA LFA.Throwing

section
variable {V : Type} [DecidableEq V] {C : Cfg V} {dv : V}

/-! ### Lost buffers -/

/-- No vector refers to the buffer `id`. -/
def VecLost (w : VecWorld V) (id : Nat) (b : Block V) : Prop :=
  w.h.blk id = some b ∧ id < w.h.next ∧ ∀ t v, w.v t = some v → v.g.data ≠ some id

/-- A buffer has been allocated which stays allocated whatever the program does. -/
def VecLeaks (C : Cfg V) (w w' : VecWorld V) : Prop :=
  ∃ id b, w.h.blk id = none ∧ VecLost w' id b ∧ ∀ ops w'' outs, w'.run C ops = .ok (w'', outs) → w''.h.blk id = some b

/-- Outcomes which leave the buffer `id` alone. -/
def VKeeps {α : Type} (id : Nat) (h : Heap V) (r : Res (VS V) α) : Prop :=
  ∀ v' h', Res.heap r = some (v', h') → Keeps id h h' ∧ v'.g.data ≠ some id

theorem VKeeps.bind {α β : Type} {id : Nat} {h : Heap V} {r : Res (VS V) α} {f : α → VS V → Res (VS V) β} (hr : VKeeps id h r)
    (hf : ∀ a v' h', Keeps id h h' → v'.g.data ≠ some id → VKeeps id h' (f a (v', h'))) : VKeeps id h (r.bind f) := by
  intro v2 h2 hh
  cases r with
  | ok a p =>
    obtain ⟨k1, k2⟩ := hr p.1 p.2 rfl
    obtain ⟨k3, k4⟩ := hf a p.1 p.2 k1 k2 v2 h2 hh
    exact ⟨k1.trans k3, k4⟩
  | throw e p => exact hr v2 h2 hh
  | ub u => cases hh

theorem VKeeps.ret {α : Type} {id : Nat} {h : Heap V} {a : α} {v : SVec} (hd : v.g.data ≠ some id) : VKeeps id h (.ok a (v, h)) := by
  intro v' h' hr; cases hr; exact ⟨Keeps.refl _ _, hd⟩

theorem VKeeps.withVec {α : Type} {id : Nat} {h : Heap V} {v : SVec} (hd : v.g.data ≠ some id) {r : Res (Heap V) α}
    (hr : ∀ h', Res.heap r = some h' → Keeps id h h') : VKeeps id h (Res.withVec v r) := by
  intro v' h' hh
  cases r with
  | ok a h2 => cases hh; exact ⟨hr _ rfl, hd⟩
  | throw e h2 => cases hh; exact ⟨hr _ rfl, hd⟩
  | ub u => cases hh

theorem dtor_keeps {id : Nat} {g : Grid} {h h' : Heap V} {x : Unit} (hd : g.data ≠ some id) (hr : g.dtor C h = .ok x h') : Keeps id h h' := by
  unfold Grid.dtor at hr
  split at hr
  · cases hr
  · exact dad_keeps hd (by rw [hr]; rfl)

theorem unwind_keeps {id : Nat} {g : Grid} {h : Heap V} {e : Exc} {v : SVec} (hd : g.data ≠ some id) (hv : v.g.data ≠ some id) :
    VKeeps id h (unwind C g e v h) := by
  intro v' h' hr
  unfold unwind at hr
  cases hdd : g.dtor C h with
  | ok x h2 => rw [hdd] at hr; cases hr; exact ⟨dtor_keeps hd hdd, hv⟩
  | throw x h2 => rw [hdd] at hr; cases hr
  | ub u => rw [hdd] at hr; cases hr

theorem gridNew_keeps {id : Nat} {d : Ext} {h h' : Heap V} {g' : Grid} (hlt : id < h.next) (hr : Res.heap (Grid.new C d h) = some (g', h')) :
    Keeps id h h' ∧ g'.data ≠ some id := resize_keeps hlt (by simp) hr

theorem new_keeps {id : Nat} {m : Nat} {h : Heap V} (hlt : id < h.next) : VKeeps id h (SVec.new C m h) := by
  intro v' h' hr
  unfold SVec.new at hr
  cases hn : Grid.new C ⟨m, 1, 1⟩ h with
  | ok x p => rw [hn] at hr; cases hr; exact gridNew_keeps (C := C) (d := ⟨m, 1, 1⟩) hlt (by rw [hn]; rfl)
  | throw x p => rw [hn] at hr; cases hr; exact gridNew_keeps (C := C) (d := ⟨m, 1, 1⟩) hlt (by rw [hn]; rfl)
  | ub u => rw [hn] at hr; cases hr

theorem newFill_keeps {id : Nat} {m : Nat} {c : Cell V} {h : Heap V} (hlt : id < h.next) : VKeeps id h (SVec.newFill C m c h) := by
  intro v' h' hr
  unfold SVec.newFill at hr
  cases hn : Grid.new C ⟨m, 1, 1⟩ h with
  | ok x p =>
    obtain ⟨g, h2⟩ := p
    obtain ⟨k1, k2⟩ := gridNew_keeps (C := C) (d := ⟨m, 1, 1⟩) (g' := g) (h' := h2) hlt (by rw [hn]; rfl)
    rw [hn] at hr
    simp only at hr
    cases hb : g.broadcast C 0 0 0 c m h2 with
    | ok x h3 => rw [hb] at hr; cases hr; exact ⟨k1.trans (callbackMut_keeps k2 (by unfold Grid.broadcast at hb; rw [hb]; rfl)), k2⟩
    | throw e h3 =>
      rw [hb] at hr
      obtain ⟨k3, k4⟩ := unwind_keeps (v := ⟨g, m⟩) k2 k2 v' h' hr
      exact ⟨(k1.trans (callbackMut_keeps k2 (by unfold Grid.broadcast at hb; rw [hb]; rfl))).trans k3, k4⟩
    | ub u => rw [hb] at hr; cases hr
  | throw x p => rw [hn] at hr; cases hr; exact gridNew_keeps (C := C) (d := ⟨m, 1, 1⟩) hlt (by rw [hn]; rfl)
  | ub u => rw [hn] at hr; cases hr

theorem gridCopy_keeps {id : Nat} {other : Grid} {h h' : Heap V} {g' : Grid} (hlt : id < h.next)
    (hr : Res.heap (Grid.copyCtor C other h) = some (g', h')) : Keeps id h h' ∧ g'.data ≠ some id := by
  unfold Grid.copyCtor at hr
  split at hr
  · cases hr
  · rename_i n hn
    have k1 := Keeps.alloc hlt n
    have hne : some h.next ≠ some id := by simp only [ne_eq, Option.some.injEq]; omega
    simp only at hr
    generalize hgg : ({ dim := other.dim, ex := none, ey := none, ez := none, bs := some n, data := some (h.alloc n).1 } : Grid) = g2 at hr
    have hg2 : g2.data ≠ some id := by rw [← hgg]; exact hne
    cases hi : g2.init C (h.alloc n).2 with
    | ub u => rw [hi] at hr; cases hr
    | throw x h2 =>
      rw [hi] at hr; cases hr
      exact ⟨k1.trans (callbackMut_keeps hg2 (by unfold Grid.init at hi; rw [hi]; rfl)), hg2⟩
    | ok x h2 =>
      rw [hi] at hr
      simp only [Res.withGrid, Res.bind] at hr
      obtain ⟨k3, rfl⟩ := copyIn_keeps hg2 hr
      exact ⟨(k1.trans (callbackMut_keeps hg2 (by unfold Grid.init at hi; rw [hi]; rfl))).trans k3, hg2⟩

theorem vcopy_keeps {id : Nat} {o : SVec} {h : Heap V} (hlt : id < h.next) : VKeeps id h (SVec.copyCtor C o h) := by
  intro v' h' hr
  unfold SVec.copyCtor at hr
  cases hn : Grid.copyCtor C o.g h with
  | ok x p => rw [hn] at hr; cases hr; exact gridCopy_keeps (C := C) hlt (by rw [hn]; rfl)
  | throw x p => rw [hn] at hr; cases hr; exact gridCopy_keeps (C := C) hlt (by rw [hn]; rfl)
  | ub u => rw [hn] at hr; cases hr

theorem gridAssign_keeps {id : Nat} {g other : Grid} {h h' : Heap V} {g' : Grid} (hlt : id < h.next) (hd : g.data ≠ some id)
    (hr : Res.heap (g.assign C other h) = some (g', h')) : Keeps id h h' ∧ g'.data ≠ some id := by
  unfold Grid.assign at hr
  cases hrs : g.resize C other.dim h with
  | ub u => rw [hrs] at hr; cases hr
  | throw x p =>
    rw [hrs] at hr; cases hr
    exact resize_keeps hlt hd (by rw [hrs]; rfl)
  | ok x p =>
    rw [hrs] at hr
    have k1 := resize_keeps (g' := p.1) (h' := p.2) hlt hd (by rw [hrs]; rfl)
    simp only [Res.bind] at hr
    obtain ⟨k3, rfl⟩ := copyIn_keeps k1.2 hr
    exact ⟨k1.1.trans k3, k1.2⟩

theorem vassign_keeps {id : Nat} {v o : SVec} {h : Heap V} (hlt : id < h.next) (hd : v.g.data ≠ some id) : VKeeps id h (v.assign C o h) := by
  intro v' h' hr
  unfold SVec.assign at hr
  cases hn : v.g.assign C o.g h with
  | ok x p => rw [hn] at hr; cases hr; exact gridAssign_keeps (C := C) hlt hd (by rw [hn]; rfl)
  | throw x p => rw [hn] at hr; cases hr; exact gridAssign_keeps (C := C) hlt hd (by rw [hn]; rfl)
  | ub u => rw [hn] at hr; cases hr

theorem VKeeps.of {id : Nat} {h h1 : Heap V} {α : Type} {r : Res (VS V) α} (hk : Keeps id h h1) (hr : VKeeps id h1 r) : VKeeps id h r :=
  fun v' h' hh => ⟨hk.trans (hr v' h' hh).1, (hr v' h' hh).2⟩

theorem vreserve_keeps {id : Nat} {v : SVec} {m : Nat} {h : Heap V} (hlt : id < h.next) (hd : v.g.data ≠ some id) :
    VKeeps id h (v.reserve C m h) := by
  unfold SVec.reserve
  cases hn : Grid.new C ⟨m, 1, 1⟩ h with
  | ub u => intro v' h' hr; cases hr
  | throw x p =>
    intro v' h' hr
    cases hr
    exact ⟨(gridNew_keeps (C := C) (d := ⟨m, 1, 1⟩) (g' := p.1) hlt (by rw [hn]; rfl)).1, hd⟩
  | ok x p =>
    obtain ⟨ng, h2⟩ := p
    obtain ⟨k1, k2⟩ := gridNew_keeps (C := C) (d := ⟨m, 1, 1⟩) (g' := ng) (h' := h2) hlt (by rw [hn]; rfl)
    refine VKeeps.of k1 ?_
    have hlt2 := Nat.lt_of_lt_of_le hlt k1.2
    simp only
    cases hex : ng.ex with
    | none => intro v' h' hr; cases hr
    | some ex =>
      simp only
      cases hrs : ng.resize C ⟨ex, 1, 1⟩ h2 with
      | ub u => intro v' h' hr; cases hr
      | throw x p =>
        obtain ⟨k3, k4⟩ := resize_keeps (C := C) (d := ⟨ex, 1, 1⟩) (g' := p.1) (h' := p.2) hlt2 k2 (by rw [hrs]; rfl)
        exact VKeeps.of k3 (unwind_keeps k4 hd)
      | ok x p =>
        obtain ⟨ng', h3⟩ := p
        obtain ⟨k3, k4⟩ := resize_keeps (C := C) (d := ⟨ex, 1, 1⟩) (g' := ng') (h' := h3) hlt2 k2 (by rw [hrs]; rfl)
        refine VKeeps.of k3 ?_
        simp only
        split
        · intro v' h' hr; cases hr
        · intro v' h' hr; cases hr
        · rename_i oex src _ _
          cases hl : ng'.load C [⟨0, 0, 0, v.n⟩] src oex h3 with
          | ub u => intro v' h' hr; cases hr
          | throw e h4 =>
            exact VKeeps.of (callbackMut_keeps k4 (by unfold Grid.load at hl; rw [hl]; rfl)) (unwind_keeps k4 hd)
          | ok x h4 =>
            refine VKeeps.of (callbackMut_keeps k4 (by unfold Grid.load at hl; rw [hl]; rfl)) ?_
            have s1 : (Grid.swap ng' v.g).1.data ≠ some id := by simpa [Grid.swap, swapExtX, swapDimX] using hd
            have s2 : (Grid.swap ng' v.g).2.data ≠ some id := by simpa [Grid.swap, swapExtX, swapDimX] using k4
            intro v' h' hr
            simp only at hr
            cases hdd : (Grid.swap ng' v.g).1.dtor C h4 with
            | ok x h5 => rw [hdd] at hr; cases hr; exact ⟨dtor_keeps s1 hdd, s2⟩
            | throw x h5 => rw [hdd] at hr; cases hr
            | ub u => rw [hdd] at hr; cases hr

theorem vset_keeps {id : Nat} {v : SVec} {i : Nat} {c : Cell V} {h : Heap V} (hd : v.g.data ≠ some id) : VKeeps id h (v.set C i c h) :=
  VKeeps.withVec hd fun h' hr => callbackMut_keeps hd hr

theorem vpush_keeps {id : Nat} {v : SVec} {c : Cell V} {h : Heap V} (hlt : id < h.next) (hd : v.g.data ≠ some id) :
    VKeeps id h (v.push C c h) := by
  unfold SVec.push
  cases hex : v.g.ex with
  | none => intro v' h' hr; cases hr
  | some ex =>
    simp only
    refine VKeeps.bind ?_ fun _ v' h' _ k2 => (vset_keeps k2).bind fun _ v2 h2 _ k4 => VKeeps.ret k4
    by_cases e : v.n = ex
    · rw [if_pos e]; exact vreserve_keeps hlt hd
    · rw [if_neg e]; exact VKeeps.ret hd

theorem vresize_keeps {id : Nat} {v : SVec} {m : Nat} {h : Heap V} (hlt : id < h.next) (hd : v.g.data ≠ some id) :
    VKeeps id h (v.resize C m h) := by
  unfold SVec.resize
  by_cases e : m > v.g.dim.x
  · rw [if_pos e]; exact (vreserve_keeps hlt hd).bind fun _ v2 h2 _ k4 => VKeeps.ret k4
  · rw [if_neg e]; exact VKeeps.ret hd

theorem VecLost.upd {w : VecWorld V} {id : Nat} {b : Block V} (hl : VecLost w id b) {h' : Heap V} {s : Nat} {v : Option SVec} (hk : Keeps id w.h h')
    (hv : ∀ v', v = some v' → v'.g.data ≠ some id) : VecLost ⟨h', World.upd w.v s v⟩ id b := by
  refine ⟨hk.1.trans hl.1, Nat.lt_of_lt_of_le hl.2.1 hk.2, fun t v' ht => ?_⟩
  simp only [World.upd] at ht
  split at ht
  · exact hv v' ht
  · exact hl.2.2 t v' ht

theorem VecLost.ofVS {α : Type} {w w' : VecWorld V} {id : Nat} {b : Block V} (hl : VecLost w id b) {s : Nat} {out : α → ArrOut V} {r : Res (VS V) α}
    {o : ArrOut V} (hk : VKeeps id w.h r) (h : w.ofVS s out r = .ok (w', o)) : VecLost w' id b := by
  cases r with
  | ok a p => cases h; exact hl.upd (hk _ _ rfl).1 (fun v' hv => by cases hv; exact (hk _ _ rfl).2)
  | throw e p => cases h; exact hl.upd (hk _ _ rfl).1 (fun v' hv => by cases hv; exact (hk _ _ rfl).2)
  | ub u => cases h

theorem VecLost.ofCtor {w w' : VecWorld V} {id : Nat} {b : Block V} (hl : VecLost w id b) {s : Nat} {r : Res (VS V) Unit}
    {o : ArrOut V} (hk : VKeeps id w.h r) (h : w.ofCtor s r = .ok (w', o)) : VecLost w' id b := by
  cases r with
  | ok a p => cases h; exact hl.upd (hk _ _ rfl).1 (fun v' hv => by cases hv; exact (hk _ _ rfl).2)
  | throw e p =>
    cases h
    have := (hk _ _ rfl).1
    exact ⟨this.1.trans hl.1, Nat.lt_of_lt_of_le hl.2.1 this.2, hl.2.2⟩
  | ub u => cases h

/-- A lost buffer stays allocated. -/
theorem VecLost.step {w w' : VecWorld V} {id : Nat} {b : Block V} (hl : VecLost w id b) {op : VecOp V} {o : ArrOut V}
    (h : w.step C op = .ok (w', o)) : VecLost w' id b := by
  have hwith : ∀ {s : Nat} {f : SVec → Except UB (VecWorld V × ArrOut V)}, w.withV s f = .ok (w', o) →
      ∃ v, w.v s = some v ∧ v.g.data ≠ some id ∧ f v = .ok (w', o) := by
    intro s f hf
    unfold VecWorld.withV at hf
    cases hg : w.v s with
    | none => rw [hg] at hf; cases hf
    | some v => rw [hg] at hf; exact ⟨v, rfl, hl.2.2 s v hg, hf⟩
  have hlt := hl.2.1
  cases op with
  | new s m =>
    simp only [VecWorld.step] at h
    split at h
    · cases h
    · exact hl.ofCtor (new_keeps hlt) h
  | newFill s m c =>
    simp only [VecWorld.step] at h
    split at h
    · cases h
    · exact hl.ofCtor (newFill_keeps hlt) h
  | copy s t =>
    simp only [VecWorld.step] at h
    split at h
    · cases h
    · obtain ⟨v, -, hd, h⟩ := hwith h
      exact hl.ofCtor (vcopy_keeps hlt) h
  | assign s t =>
    obtain ⟨v, -, hd, h⟩ := hwith h
    obtain ⟨v', -, hd', h⟩ := hwith h
    exact hl.ofVS (vassign_keeps hlt hd) h
  | destroy s =>
    obtain ⟨v, -, hd, h⟩ := hwith h
    cases hdd : v.dtor C w.h with
    | ok x h2 => simp only [hdd] at h; cases h; exact hl.upd (dtor_keeps hd hdd) (fun v' hv => by cases hv)
    | throw x h2 => simp only [hdd] at h; cases h
    | ub u => simp only [hdd] at h; cases h
  | set s i c => obtain ⟨v, -, hd, h⟩ := hwith h; exact hl.ofVS (vset_keeps hd) h
  | get s i t => obtain ⟨v, -, hd, h⟩ := hwith h; exact hl.ofVS (VKeeps.withVec hd fun h' hr => callbackRead_keeps hr) h
  | push s c => obtain ⟨v, -, hd, h⟩ := hwith h; exact hl.ofVS (vpush_keeps hlt hd) h
  | pop s td => obtain ⟨v, -, hd, h⟩ := hwith h; exact hl.ofVS (by unfold SVec.pop; exact vset_keeps (v := ⟨v.g, _⟩) hd) h
  | clear s => obtain ⟨v, -, hd, h⟩ := hwith h; cases h; exact hl.upd (Keeps.refl _ _) (fun v' hv => by cases hv; exact hd)
  | resize s m => obtain ⟨v, -, hd, h⟩ := hwith h; exact hl.ofVS (vresize_keeps hlt hd) h
  | reserve s m => obtain ⟨v, -, hd, h⟩ := hwith h; exact hl.ofVS (vreserve_keeps hlt hd) h
  | size s => obtain ⟨v, -, hd, h⟩ := hwith h; cases h; exact hl
  | capacity s => obtain ⟨v, -, hd, h⟩ := hwith h; cases h; exact hl
  | empty s => obtain ⟨v, -, hd, h⟩ := hwith h; cases h; exact hl
  | poke s x X r k val => obtain ⟨v, -, hd, h⟩ := hwith h; exact hl.ofVS (VKeeps.withVec hd fun h' hr => callbackMut_keeps hd hr) h
  | peek s x X r k => obtain ⟨v, -, hd, h⟩ := hwith h; exact hl.ofVS (VKeeps.withVec hd fun h' hr => callbackRead_keeps hr) h

theorem VecLost.run {id : Nat} {b : Block V} : ∀ {ops : List (VecOp V)} {w w' : VecWorld V} {outs : List (ArrOut V)}, VecLost w id b →
    w.run C ops = .ok (w', outs) → VecLost w' id b
  | [], w, w', outs, hl, h => by cases h; exact hl
  | op :: ops, w, w', outs, hl, h => by
    simp only [VecWorld.run] at h
    cases hs : w.step C op with
    | error u => rw [hs] at h; cases h
    | ok p =>
      rw [hs] at h
      simp only at h
      cases hr : VecWorld.run C p.1 ops with
      | error u => rw [hr] at h; cases h
      | ok q =>
        rw [hr] at h
        cases h
        exact VecLost.run (hl.step (C := C) (w' := p.1) (o := p.2) hs) hr

/-- Programs which did not violate the contract so far, possibly with exceptions which they caught. -/
def VecReach (C : Cfg V) (dv : V) (w : VecWorld V) : Prop :=
  ∃ ops σ outs, VecSpec.runFail C dv VecSpec.start ops = some (σ, outs) ∧ Vec.run C VecWorld.init ops = .ok (w, outs)

theorem VecReach.refines (hL : C.L.WF) (h1 : OneD C.tr) {w : VecWorld V} (h : VecReach C dv w) : ∃ σ, VR C w σ := by
  obtain ⟨ops, σ, outs, k1, k2⟩ := h
  obtain ⟨w', j1, j2⟩ := vec_throw_run_refines hL h1 dv ops VR.init k1
  rw [k2] at j1
  cases j1
  exact ⟨σ, j2⟩

theorem vec_leaks {w : VecWorld V} {σ : VecSpec.State V} (hR : VR C w σ) {h' : Heap V} {b : Block V} (hb : h'.blk w.h.next = some b)
    (hn : w.h.next < h'.next) {v : Nat → Option SVec} (hv : ∀ t x, v t = some x → ∃ y, w.v t = some y ∧ x.g = y.g) : VecLeaks C w ⟨h', v⟩ := by
  have hl : VecLost ⟨h', v⟩ w.h.next b := by
    refine ⟨hb, hn, fun t x ht hx => ?_⟩
    obtain ⟨y, hy, hxy⟩ := hv t x ht
    cases hs : σ t with
    | none => rw [hR.absent hs] at hy; cases hy
    | some a =>
      obtain ⟨g, hg1, hg2⟩ := hR.vec hs
      rw [hg1] at hy; cases hy
      obtain ⟨id, b', q1, q2, -, -⟩ := hg2.buf
      rw [hxy] at hx
      simp only at hx
      rw [q1] at hx
      cases hx
      rw [hR.fresh _ (Nat.le_refl _)] at q2; cases q2
  exact ⟨w.h.next, b, hR.fresh _ (Nat.le_refl _), hl, fun ops w'' outs hr => (hl.run hr).1⟩

theorem newGrid_next {m n : Nat} {u : Option V} {h h' : Heap V} (hr : Vec.newGrid C m n u h = .ok (some h')) :
    ∃ b, h'.blk h.next = some b ∧ h.next < h'.next := by
  unfold Vec.newGrid at hr
  cases hz : Throwing.resize C Vec.blank ⟨m, 1, 1⟩ n u h with
  | error x => rw [hz] at hr; cases hr
  | ok o =>
    rw [hz] at hr
    cases o with
    | none => cases hr
    | some p =>
      cases hr
      unfold Throwing.resize at hz
      split at hz
      · cases hz
      · simp only [Vec.blank, Grid.destroyAndDeallocate] at hz
        split at hz
        · cases hz
        · rename_i e he
          generalize hq : Throwing.onBuffer (some (h.alloc (byteSizeOf C.L e)).1) (fun b => b) (constructList C.L ⟨m, 1, 1⟩ e) n u
            (h.alloc (byteSizeOf C.L e)).2 = r at hz
          cases r with
          | error x => cases hz
          | ok o =>
            cases o with
            | none => cases hz
            | some h' =>
              cases hz
              obtain ⟨b, rfl⟩ := onBuffer_some hq
              exact ⟨b, by simp [Heap.set, Heap.alloc], by simp [Heap.set, Heap.alloc]⟩

theorem copyCtor_next {other : Grid} {n : Nat} {u : Option V} {h h' : Heap V} (hc : Throwing.copyCtor C other n u h = .ok (some h')) :
    ∃ b, h'.blk h.next = some b ∧ h.next < h'.next := by
  unfold Throwing.copyCtor at hc
  split at hc
  · cases hc
  · rename_i size hsz
    simp only at hc
    split at hc
    · cases hc
    · rename_i e he
      split at hc
      · obtain ⟨b, rfl⟩ := onBuffer_some hc
        exact ⟨b, by simp [Heap.set, Heap.alloc], by simp [Heap.set, Heap.alloc]⟩
      · split at hc
        · cases hc
        · cases hc
        · rename_i h2 hi
          have k2 : h.next < h2.next := by
            unfold Grid.init Grid.callbackMut at hi
            split at hi
            · cases hi
            · unfold LFA.onBuffer at hi
              simp only [Heap.alloc] at hi
              split at hi
              · cases hi
              · split at hi
                · cases hi
                  simp [Heap.set]
                · cases hi
          have hgo : ∀ (src : Block V → Block V) ops n', Throwing.onBuffer (some (h.alloc size).1) src ops n' u h2 = .ok (some h') →
              ∃ b, h'.blk h.next = some b ∧ h.next < h'.next := by
            intro src ops n' hb
            obtain ⟨b, rfl⟩ := onBuffer_some hb
            exact ⟨b, by simp [Heap.set, Heap.alloc], by simpa [Heap.set] using k2⟩
          unfold Throwing.copyIn at hc
          simp only at hc
          split at hc
          · split at hc
            · split at hc
              · cases hc
              · exact hgo _ _ _ hc
            · cases hc
          · split at hc
            · cases hc
            · split at hc
              · split at hc
                · cases hc
                · exact hgo _ _ _ hc
              · cases hc

theorem ctor_ok {w w' : VecWorld V} {s : Nat} {r : Except UB (Option (Heap V))} (h : Vec.step.ctor w s r = .ok (some w')) :
    ∃ h', r = .ok (some h') ∧ w' = ⟨h', w.v⟩ := by
  unfold Vec.step.ctor at h
  split at h
  · cases h
  · cases r with
    | error x => cases h
    | ok o =>
      cases o with
      | none => cases h
      | some h' => cases h; exact ⟨h', rfl, rfl⟩

theorem withV_ok' {w w' : VecWorld V} {s : Nat} {f : SVec → Except UB (Option (VecWorld V))} (h : Vec.step.withV w s f = .ok (some w')) :
    ∃ v, w.v s = some v ∧ f v = .ok (some w') := by
  unfold Vec.step.withV at h
  cases hv : w.v s with
  | none => rw [hv] at h; cases h
  | some v => rw [hv] at h; exact ⟨v, rfl, h⟩

theorem vupd_ok {w w' : VecWorld V} {s : Nat} {r : Except UB (Option (VS V))} (h : Vec.step.upd w s r = .ok (some w')) :
    ∃ v' h', r = .ok (some (v', h')) ∧ w' = ⟨h', World.upd w.v s (some v')⟩ := by
  unfold Vec.step.upd at h
  cases r with
  | error x => cases h
  | ok o =>
    cases o with
    | none => cases h
    | some p => cases h; exact ⟨p.1, p.2, rfl, rfl⟩

/-- C68 is false of `soa_vector(count)`: if the constructor of a member throws then the buffer is never released, and the objects
    constructed so far are never destroyed. -/
theorem C68_false_vector_new (hL : C.L.WF) (h1 : OneD C.tr) {w w' : VecWorld V} (hV : VecReach C dv w) {s m n : Nat} {u : Option V}
    (h : Vec.step C w n u (.new s m) = .ok (some w')) : VecLeaks C w w' := by
  obtain ⟨σ, hR⟩ := hV.refines hL h1
  obtain ⟨h', hr, rfl⟩ := ctor_ok h
  obtain ⟨b, k1, k2⟩ := newGrid_next hr
  exact vec_leaks hR k1 k2 fun t x hx => ⟨x, hx, rfl⟩

/-- So does `soa_vector(count, value)`, unless all members could be constructed. -/
theorem C68_false_vector_fill (hL : C.L.WF) (h1 : OneD C.tr) {w w' : VecWorld V} (hV : VecReach C dv w) {s m n : Nat} {u : Option V}
    {c : Cell V} (hn : n < m * (ArrSpec.objs C.L).length) (h : Vec.step C w n u (.newFill s m c) = .ok (some w')) : VecLeaks C w w' := by
  obtain ⟨σ, hR⟩ := hV.refines hL h1
  obtain ⟨h', hr, rfl⟩ := ctor_ok h
  cases hs : selectSizes C.tr ⟨m, 1, 1⟩ with
  | error e =>
    unfold Vec.newFill at hr
    simp only [Vec.constructed_blank_error hs, Nat.not_lt_zero, if_false, new_throw hs] at hr
    cases hr
  | ok e =>
    unfold Vec.newFill at hr
    rw [Vec.constructed_blank hs] at hr
    simp only [if_pos hn] at hr
    obtain ⟨b, k1, k2⟩ := newGrid_next hr
    exact vec_leaks hR k1 k2 fun t x hx => ⟨x, hx, rfl⟩

/-- So does the copy constructor, no matter whether the constructor or the assignment operator of the member throws. -/
theorem C68_false_vector_copy (hL : C.L.WF) (h1 : OneD C.tr) {w w' : VecWorld V} (hV : VecReach C dv w) {s t n : Nat} {u : Option V}
    (h : Vec.step C w n u (.copy s t) = .ok (some w')) : VecLeaks C w w' := by
  obtain ⟨σ, hR⟩ := hV.refines hL h1
  obtain ⟨o, ho, h⟩ := withV_ok' h
  obtain ⟨h', hr, rfl⟩ := ctor_ok h
  obtain ⟨b, k1, k2⟩ := copyCtor_next hr
  exact vec_leaks hR k1 k2 fun t x hx => ⟨x, hx, rfl⟩

/-- So does `reserve` if its first round of constructors throws. -/
theorem C68_false_vector_reserve (hL : C.L.WF) (h1 : OneD C.tr) {w w' : VecWorld V} (hV : VecReach C dv w) {s m n : Nat} {u : Option V}
    (hn : n < m * (ArrSpec.objs C.L).length) (h : Vec.step C w n u (.reserve s m) = .ok (some w')) : VecLeaks C w w' := by
  obtain ⟨σ, hR⟩ := hV.refines hL h1
  obtain ⟨v, hv, h⟩ := withV_ok' h
  obtain ⟨v', h', hr, rfl⟩ := vupd_ok h
  have key : Vec.reserve C v m n u w.h = .ok (some h') ∧ v' = v := by
    cases hz : Vec.reserve C v m n u w.h with
    | error x => rw [hz] at hr; cases hr
    | ok o =>
      rw [hz] at hr
      cases o with
      | none => cases hr
      | some h2 => cases hr; exact ⟨rfl, rfl⟩
  obtain ⟨hr, rfl⟩ := key
  have fin : Vec.newGrid C m n u w.h = .ok (some h') := by
    unfold Vec.reserve at hr
    cases hs : selectSizes C.tr ⟨m, 1, 1⟩ with
    | error e =>
      simp only [Vec.constructed_blank_error hs, Nat.not_lt_zero, if_false, new_throw hs] at hr
      cases hr
    | ok e =>
      rw [Vec.constructed_blank hs] at hr
      simpa only [if_pos hn] using hr
  obtain ⟨b, k1, k2⟩ := newGrid_next fin
  refine vec_leaks hR k1 k2 fun t x hx => ?_
  by_cases e : t = s
  · subst e
    rw [upd_self] at hx; cases hx
    exact ⟨_, hv, rfl⟩
  · rw [upd_ne _ _ e] at hx
    exact ⟨x, hx, rfl⟩

/-! ### Destructors of grids whose construction was not finished -/

theorem upTo_loud {L : Layout V} {src : Block V → Block V} {ops : List (MemOp V)} {n : Nat} {ks : List (Nat × Nat)}
    (H : List.Forall₂ (Arr.Kind L) ops ks) (h : ArrSpec.throws L ks n = true) (u : Option V) (b : Block V) :
    Throwing.upTo src ops n u b ≠ .ok none := by
  have hlen := H.length_eq
  unfold ArrSpec.throws at h
  cases hk : ks[n]? with
  | none => rw [hk] at h; cases h
  | some p =>
    rw [hk] at h
    have hlt := (List.getElem?_eq_some_iff.1 hk).1
    have hn : n < ops.length := by omega
    obtain ⟨m, hm, ht⟩ := H.get (i := n) hn hlt
    simp only [List.get_eq_getElem] at hm ht
    rw [(List.getElem?_eq_some_iff.1 hk).2] at hm
    simp only [hm] at h
    unfold Throwing.upTo
    rw [List.getElem?_eq_getElem hn]
    simp only [ht]
    cases hty : m.ty with
    | mk sz tr =>
      rw [hty] at h
      cases tr with
      | true => cases h
      | false =>
        simp only
        cases (runL (exec src) (ops.take n) b).bind (failed src u ops[n]) with
        | error e => exact fun h => by cases h
        | ok b' => exact fun h => by cases h

theorem resize_loud {g : Grid} {m n : Nat} {u : Option V} {h : Heap V} {x : Unit} {p : GS V} (hr : g.resize C ⟨m, 1, 1⟩ h = .ok x p) (hm : g.dim.x ≠ m)
    (hq : ArrSpec.throws C.L (ArrSpec.byStruct C.L m) n = true) : Throwing.resize C g ⟨m, 1, 1⟩ n u h ≠ .ok none := by
  unfold Throwing.resize
  unfold Grid.resize at hr
  rw [if_neg (fun h => hm h.1)] at hr ⊢
  cases hdd : g.destroyAndDeallocate C h with
  | ub e => rw [hdd] at hr; cases hr
  | throw e h2 => rw [hdd] at hr; cases hr
  | ok x h2 =>
    rw [hdd] at hr
    simp only [Res.withGrid, Res.bind] at hr
    cases hs : selectSizes C.tr ⟨m, 1, 1⟩ with
    | error e => simp only [hs] at hr; cases hr
    | ok e =>
      unfold Throwing.onBuffer
      simp only [Heap.alloc, if_true]
      have := upTo_loud (src := fun b => b) (Vec.constructList_kind1 C.L m e) hq u (Block.fresh (byteSizeOf C.L e))
      cases hu : Throwing.upTo (fun b => b) (constructList C.L ⟨m, 1, 1⟩ e) n u (Block.fresh (byteSizeOf C.L e)) with
      | error e => exact fun h => by cases h
      | ok o =>
        cases o with
        | none => exact absurd hu this
        | some b => exact fun h => by cases h

/-- `reserve` if its second round of constructors throws. -/
theorem reserve_spoils (hL : C.L.WF) (h1 : OneD C.tr) (dv : V) {h : Heap V} (hf : ∀ i, h.next ≤ i → h.blk i = none) {v : SVec} {m n : Nat}
    {u : Option V} {e : Ext} (hs : selectSizes C.tr ⟨m, 1, 1⟩ = .ok e) (hm : m ≠ e.x) (hn : m * (ArrSpec.objs C.L).length ≤ n)
    (ht : ArrSpec.throws C.L (ArrSpec.byStruct C.L e.x) (n - m * (ArrSpec.objs C.L).length) = true) :
    n - m * (ArrSpec.objs C.L).length < e.x * (ArrSpec.objs C.L).length ∧ ∃ ub, Vec.reserve C v m n u h = .error ub := by
  have hlt : n - m * (ArrSpec.objs C.L).length < e.x * (ArrSpec.objs C.L).length := by
    rw [← Vec.byStruct_length C.L e.x]
    unfold ArrSpec.throws at ht
    cases hk : (ArrSpec.byStruct C.L e.x)[n - m * (ArrSpec.objs C.L).length]? with
    | none => rw [hk] at ht; cases ht
    | some p => exact (List.getElem?_eq_some_iff.1 hk).1
  refine ⟨hlt, ?_⟩
  obtain ⟨ng, h0, ng', h2, new, k1, k2, k3, k4, k5, k6, k7⟩ := reserve_grid hL h1 hf hs dv
  obtain ⟨ng0, h00, v1, v2, v3, v4⟩ := new_vec hL h1 dv hf hs
  rw [k1] at v1
  obtain ⟨rfl, rfl⟩ : ng = ng0 ∧ h0 = h00 := by
    injection v1 with _ v1; injection v1 with v1 v1'; exact ⟨v1, v1'⟩
  have hdim : ng.dim = ⟨m, 1, 1⟩ := v4.dim
  unfold Vec.reserve
  simp only [k1, k2, Vec.constructed_blank hs, if_neg (Nat.not_lt.2 hn), Vec.constructed_diff hdim hm (h1.idem hs), if_pos hlt]
  have hl := resize_loud (u := u) k3 (by rw [hdim]; exact hm) ht
  cases hr : Throwing.resize C ng ⟨e.x, 1, 1⟩ (n - m * (ArrSpec.objs C.L).length) u h0 with
  | error e => exact ⟨e, rfl⟩
  | ok o =>
    cases o with
    | none => exact absurd hr hl
    | some p =>
      obtain ⟨ub, hub⟩ := resize_spoils hL (g' := p.1) (h' := p.2) hr
      exact ⟨ub, by simp only [Vec.unwound, Grid.dtor, hub]⟩

/-- C68 is false of `reserve`: it constructs members twice, first as many as requested, then as many as there is room for. If the second
    round throws then the destructor of the new grid destroys objects which have not been constructed. -/
theorem C68_false_vector_reserve_unwind (hL : C.L.WF) (h1 : OneD C.tr) {w : VecWorld V} (hV : VecReach C dv w) {s m n : Nat} {u : Option V}
    {e : Ext} (hs : selectSizes C.tr ⟨m, 1, 1⟩ = .ok e) (hm : m ≠ e.x) (hn : m * (ArrSpec.objs C.L).length ≤ n)
    (ht : ArrSpec.throws C.L (ArrSpec.byStruct C.L e.x) (n - m * (ArrSpec.objs C.L).length) = true) :
    ∃ ub, Vec.step C w n u (.reserve s m) = .error ub := by
  obtain ⟨σ, hR⟩ := hV.refines hL h1
  simp only [Vec.step, Vec.step.withV]
  cases hv : w.v s with
  | none => exact ⟨_, rfl⟩
  | some v =>
    obtain ⟨-, ub, hr⟩ := reserve_spoils hL h1 dv hR.fresh (v := v) (u := u) hs hm hn ht
    exact ⟨ub, by simp only [hr]; rfl⟩

/-- The same goes for `push_back` on a full vector. -/
theorem C68_false_vector_push_unwind (hL : C.L.WF) (h1 : OneD C.tr) {w : VecWorld V} (hV : VecReach C dv w) {s n : Nat} {u : Option V} {v : SVec}
    {c : Cell V} {e : Ext} (hv : w.v s = some v) (hfull : v.g.ex = some v.n) (hs : selectSizes C.tr ⟨grow v.n, 1, 1⟩ = .ok e) (hm : grow v.n ≠ e.x)
    (hn : grow v.n * (ArrSpec.objs C.L).length ≤ n)
    (ht : ArrSpec.throws C.L (ArrSpec.byStruct C.L e.x) (n - grow v.n * (ArrSpec.objs C.L).length) = true) :
    ∃ ub, Vec.step C w n u (.push s c) = .error ub := by
  obtain ⟨σ, hR⟩ := hV.refines hL h1
  obtain ⟨hlt, ub, hr⟩ := reserve_spoils hL h1 dv hR.fresh (v := v) (u := u) hs hm hn ht
  refine ⟨ub, ?_⟩
  simp only [Vec.step, Vec.step.withV, hv, Vec.push, hfull, if_true, Vec.reserveOps, hs, Vec.constructed_blank hs,
    Vec.constructed_diff (C := C) (g := { Vec.blank with dim := ⟨grow v.n, 1, 1⟩ }) rfl hm (h1.idem hs)]
  rw [if_pos (by omega), hr]
  rfl

/-- If the constructor of a member throws in `operator=` of vectors of different capacities then the destructor of the vector which was
    to be assigned to destroys objects which have not been constructed. -/
theorem C68_false_vector_assign (hL : C.L.WF) (h1 : OneD C.tr) {w w' : VecWorld V} (hV : VecReach C dv w) {s t n N M : Nat} {u : Option V}
    (hs : w.step C (.capacity s) = .ok (w, .nat N)) (ht : w.step C (.capacity t) = .ok (w, .nat M)) (hne : N ≠ M)
    (hn : n < M * (ArrSpec.objs C.L).length) (h : Vec.step C w n u (.assign s t) = .ok (some w')) :
    ∃ ub, w'.step C (.destroy s) = .error ub := by
  obtain ⟨σ, hR⟩ := hV.refines hL h1
  obtain ⟨v, hv, h⟩ := withV_ok' h
  obtain ⟨o, ho, h⟩ := withV_ok' h
  obtain ⟨v', h', hr, rfl⟩ := vupd_ok h
  have slot : ∀ {s v}, w.v s = some v → ∃ a, VecOK C w.h v.g a := by
    intro s v hv
    cases hσ : σ s with
    | none => rw [hR.absent hσ] at hv; cases hv
    | some a =>
      obtain ⟨g, hg1, hg2⟩ := hR.vec hσ
      rw [hg1] at hv; cases hv
      exact ⟨a, hg2⟩
  obtain ⟨a, ha⟩ := slot hv
  obtain ⟨b, hb⟩ := slot ho
  have e1 : a.dim = N := by
    simp only [VecWorld.step, VecWorld.withV, hv, ha.dim] at hs
    injection hs with hs; injection hs with _ hs; injection hs
  have e2 : b.dim = M := by
    simp only [VecWorld.step, VecWorld.withV, ho, hb.dim] at ht
    injection ht with ht; injection ht with _ ht; injection ht
  have hrs : Throwing.resize C v.g o.g.dim n u w.h = .ok (some (v'.g, h')) := by
    have hc : Throwing.constructed C v.g o.g.dim = b.dim * (ArrSpec.objs C.L).length := by
      rw [hb.dim]
      exact Vec.constructed_diff ha.dim (by omega) hb.sel
    unfold Throwing.assign at hr
    simp only [hc, if_pos (show n < b.dim * (ArrSpec.objs C.L).length by rw [e2]; exact hn)] at hr
    cases hz : Throwing.resize C v.g o.g.dim n u w.h with
    | error x => rw [hz] at hr; cases hr
    | ok op =>
      rw [hz] at hr
      cases op with
      | none => cases hr
      | some p => cases hr; rfl
  obtain ⟨ub, hub⟩ := resize_spoils hL hrs
  exact ⟨ub, by simp only [VecWorld.step, VecWorld.withV, upd_self, SVec.dtor, Grid.dtor, hub]⟩

/-- C68 is false of `operator=` for vectors of different capacities even if only assignment operators of members throw: the capacity is
    that of the source, but the size is the old one, however large. -/
theorem C68_false_vector_assign_size (hL : C.L.WF) (h1 : OneD C.tr) {w w' : VecWorld V} {s t n N M : Nat} {u : Option V} {l k : List (Cell V)}
    (ha : VecAllowed C dv w n u (.assign s t)) (hs : Vec.step C w n u (.assign s t) = .ok (some w')) (h : VecHas C w s N l)
    (h' : VecHas C w t M k) (hne : N ≠ M) :
    w'.step C (.size s) = .ok (w', .nat l.length) ∧ w'.step C (.capacity s) = .ok (w', .nat M) := by
  obtain ⟨σ, σ', hR, hf, hR'⟩ := vec_throw_step hL h1 ha hs
  obtain ⟨a, k1, k2, k3, k4, k5⟩ := h.state hL h1 dv hR
  obtain ⟨o, j1, j2, j3, j4, j5⟩ := h'.state hL h1 dv hR
  simp only [VecSpec.fail, k1, j1] at hf
  rw [if_neg (by rw [k3, j3]; exact hne)] at hf
  split at hf
  · exact absurd hf failCtor_none
  · obtain ⟨-, rfl⟩ := if_some (Option.some.inj hf)
    obtain ⟨g, hg1, hg2⟩ := hR'.vec (upd_self _ _ _)
    constructor
    · simp only [VecWorld.step, VecWorld.withV, hg1, k2]
    · simp only [VecWorld.step, VecWorld.withV, hg1, hg2.dim, j3]

end

/-! ### Examples

Member objects 4, 9, 14, … of a vector may throw. -/

/-- Buffers of 5 or 8 structs. -/
def vthC : Cfg Int := ⟨demoL, .uniform1 [5, 8], false⟩

theorem vthC_one : OneD vthC.tr := OneD.uniform1 _

/-- Three vectors; exceptions out of `reserve`, `push_back`, `set` and `operator=` have been caught. -/
def vthOps : List (VecOp Int × Option (Nat × Option Int)) :=
  [(.newFill 0 2 demoCell, none), (.reserve 0 3, some (48, none)), (.reserve 0 3, none), (.push 0 demoCell, some (4, none)),
   (.newFill 1 5 demoCell, none), (.set 1 3 (fun _ _ => 8), some (4, some 3)), (.newFill 2 7 demoCell, some (39, none)),
   (.newFill 2 7 demoCell, none), (.assign 1 0, some (22, some 6)), (.size 1, none), (.push 1 demoCell, some (99, none))]

theorem vth_spec : ∃ σ outs, VecSpec.runFail vthC 0 VecSpec.start vthOps = some (σ, outs) := ⟨_, _, rfl⟩

example : ∃ w outs, Vec.run vthC VecWorld.init vthOps = .ok (w, outs) := by
  obtain ⟨σ, outs, h⟩ := vth_spec
  obtain ⟨w, h, -⟩ := C68_vector_history_partial (C := vthC) demoL_WF vthC_one h
  exact ⟨w, outs, h⟩

/-- The operation is legal and does throw. -/
def VThrows (w : VecWorld Int) (n : Nat) (op : VecOp Int) : Prop :=
  VecAllowed vthC 0 w n none op ∧ ∃ w', Vec.step vthC w n none op = .ok (some w')

/-- A state in which the theorems above apply to all kinds of operations: two structs with room for five, five structs, and seven structs
    in a buffer of eight. -/
theorem demo_throws_vector : ∃ w : VecWorld Int, VecReach vthC 0 w ∧ (∃ l, VecHas vthC w 0 5 l ∧ l.length = 2) ∧
    (∃ l, VecHas vthC w 1 5 l ∧ l.length = 5) ∧ (∃ l, VecHas vthC w 2 7 l ∧ l.length = 7) ∧
    VThrows w 4 (.push 0 demoCell) ∧ VThrows w 90 (.push 1 demoCell) ∧ VThrows w 99 (.push 1 demoCell) ∧ VThrows w 90 (.reserve 1 6) ∧
    VThrows w 90 (.resize 1 6) ∧ VThrows w 4 (.set 0 1 demoCell) ∧ VThrows w 0 (.poke 1 0 2 2 0 7) ∧ VThrows w 4 (.pop 0 demoCell) ∧
    VThrows w 22 (.assign 0 1) ∧ VThrows w 45 (.assign 2 0) ∧ VThrows w 29 (.newFill 3 5 demoCell) ∧
    ∃ v, w.v 1 = some v ∧ v.n = 5 ∧ v.g.ex = some 5 := by
  obtain ⟨w, h1, hR⟩ := vec_throw_run_refines (C := vthC) demoL_WF vthC_one 0 [(.newFill 0 2 demoCell, none), (.reserve 0 3, some (48, none)),
    (.reserve 0 3, none), (.newFill 1 5 demoCell, none), (.newFill 2 7 demoCell, none)] VR.init (σ' := _) (outs := _) rfl
  have key : ∀ (n : Nat) (op : VecOp Int) σ', VecSpec.fail vthC 0 _ n none op = some (some σ') → VThrows w n op := fun n op σ' h => by
    refine ⟨⟨_, _, _, _, rfl, h1, h⟩, ?_⟩
    obtain ⟨r', k1, k2⟩ := Vec.vfail_refines (C := vthC) demoL_WF vthC_one 0 hR op n none h
    cases r' with
    | none => exact absurd k2 id
    | some w' => exact ⟨w', k1⟩
  have has : ∀ (s : Nat) (a : AVec Int), _ = some a → a.n ≤ a.dim → VecHas vthC w s a.dim (VecSpec.row vthC 0 a a.n) := fun s a ha hle => by
    obtain ⟨g, hg1, hg2⟩ := hR.vec (s := s) ha
    refine VecHas.of (C := vthC) demoL_WF vthC_one 0 hR ha (l := VecSpec.row vthC 0 a a.n) (Vec.row_length _ _ _ _).symm hle
      (fun i hi => row_getElem? (fun i hi => hg2.live i (by omega)) i (by rwa [Vec.row_length] at hi)) ⟨rfl, fun i c c' hc hc' t => by
        rw [hc] at hc'; cases hc'; rfl⟩
  obtain ⟨g, hg1, hg2⟩ := hR.vec (s := 1) rfl
  exact ⟨w, ⟨_, _, _, rfl, h1⟩, ⟨_, has 0 _ rfl (by decide), rfl⟩, ⟨_, has 1 _ rfl (by decide), rfl⟩, ⟨_, has 2 _ rfl (by decide), rfl⟩,
    key _ _ _ rfl, key _ _ _ rfl, key _ _ _ rfl, key _ _ _ rfl, key _ _ _ rfl, key _ _ _ rfl, key _ _ _ rfl, key _ _ _ rfl, key _ _ _ rfl,
    key _ _ _ rfl, key _ _ _ rfl, ⟨_, hg1, rfl, hg2.ex rfl⟩⟩

example : ∃ (w w' : VecWorld Int) (l : List (Cell Int)), l.length = 5 ∧ Vec.step vthC w 99 none (.push 1 demoCell) = .ok (some w') ∧
    ∃ N, VecHas vthC w' 1 N l := by
  obtain ⟨w, -, -, ⟨l, hl, hlen⟩, -, -, -, ⟨ha, w', hs⟩, -⟩ := demo_throws_vector
  exact ⟨w, w', l, hlen, hs, C68_vector_push_partial (C := vthC) demoL_WF vthC_one ha hs hl⟩

/-- Seven structs in a vector of capacity five. -/
example : ∃ w w' : VecWorld Int, Vec.step vthC w 45 none (.assign 2 0) = .ok (some w') ∧ w'.step vthC (.size 2) = .ok (w', .nat 7) ∧
    w'.step vthC (.capacity 2) = .ok (w', .nat 5) := by
  obtain ⟨w, -, ⟨l, hl, hlen⟩, -, ⟨k, hk, hlen'⟩, -, -, -, -, -, -, -, -, -, ⟨ha, w', hs⟩, -⟩ := demo_throws_vector
  obtain ⟨h1, h2⟩ := C68_false_vector_assign_size (C := vthC) demoL_WF vthC_one ha hs hk hl (by decide)
  rw [hlen'] at h1
  exact ⟨w, w', hs, h1, h2⟩

/-- `push_back` on a full vector. -/
example : ∃ w : VecWorld Int, VecReach vthC 0 w ∧ ∃ ub, Vec.step vthC w 34 none (.push 1 demoCell) = .error ub := by
  obtain ⟨w, hV, -, -, -, -, -, -, -, -, -, -, -, -, -, -, v, hv, hn, hex⟩ := demo_throws_vector
  refine ⟨w, hV, C68_false_vector_push_unwind (C := vthC) (e := ⟨8, 1, 1⟩) demoL_WF vthC_one hV hv (by rw [hn]; exact hex) (by rw [hn]; rfl) (by rw [hn]; decide)
    (by rw [hn]; decide) (by rw [hn]; rfl)⟩

example : ∃ w : VecWorld Int, VecReach vthC 0 w ∧ ∃ ub, Vec.step vthC w 34 none (.reserve 1 6) = .error ub := by
  obtain ⟨w, hV, -⟩ := demo_throws_vector
  exact ⟨w, hV, C68_false_vector_reserve_unwind (C := vthC) (e := ⟨8, 1, 1⟩) demoL_WF vthC_one hV rfl (by decide) (by decide) rfl⟩

/-- Constructors, and the first phase of `reserve`. -/
example : ∃ w', Vec.step vthC VecWorld.init 9 none (.new 0 5) = .ok (some w') ∧ VecLeaks vthC VecWorld.init w' := by
  obtain ⟨w', h⟩ : ∃ w', Vec.step vthC VecWorld.init 9 none (.new 0 5) = .ok (some w') := ⟨_, rfl⟩
  exact ⟨w', h, C68_false_vector_new (C := vthC) (dv := 0) demoL_WF vthC_one ⟨[], _, _, rfl, rfl⟩ h⟩

example : ∃ w', Vec.step vthC VecWorld.init 9 none (.newFill 0 5 demoCell) = .ok (some w') ∧ VecLeaks vthC VecWorld.init w' := by
  obtain ⟨w', h⟩ : ∃ w', Vec.step vthC VecWorld.init 9 none (.newFill 0 5 demoCell) = .ok (some w') := ⟨_, rfl⟩
  exact ⟨w', h, C68_false_vector_fill (C := vthC) (dv := 0) demoL_WF vthC_one ⟨[], _, _, rfl, rfl⟩ (by decide) h⟩

theorem demo_leaks_vector : ∃ w, VecReach vthC 0 w ∧ (∃ w', Vec.step vthC w 9 none (.copy 2 0) = .ok (some w')) ∧
    (∃ w', Vec.step vthC w 9 none (.reserve 0 2) = .ok (some w')) ∧ (∃ w', Vec.step vthC w 4 none (.assign 0 1) = .ok (some w')) ∧
    w.step vthC (.capacity 0) = .ok (w, .nat 1) ∧ w.step vthC (.capacity 1) = .ok (w, .nat 2) :=
  ⟨_, ⟨[(.new 0 1, none), (.new 1 2, none)], _, _, rfl, rfl⟩, ⟨_, rfl⟩, ⟨_, rfl⟩, ⟨_, rfl⟩, rfl, rfl⟩

example : ∃ w w', Vec.step vthC w 9 none (.copy 2 0) = .ok (some w') ∧ VecLeaks vthC w w' := by
  obtain ⟨w, hV, ⟨w', h⟩, -⟩ := demo_leaks_vector
  exact ⟨w, w', h, C68_false_vector_copy (C := vthC) demoL_WF vthC_one hV h⟩

example : ∃ w w', Vec.step vthC w 9 none (.reserve 0 2) = .ok (some w') ∧ VecLeaks vthC w w' := by
  obtain ⟨w, hV, -, ⟨w', h⟩, -⟩ := demo_leaks_vector
  exact ⟨w, w', h, C68_false_vector_reserve (C := vthC) demoL_WF vthC_one hV (by decide) h⟩

example : ∃ w w', Vec.step vthC w 4 none (.assign 0 1) = .ok (some w') ∧ ∃ ub, w'.step vthC (.destroy 0) = .error ub := by
  obtain ⟨w, hV, -, -, ⟨w', h⟩, h0, h1⟩ := demo_leaks_vector
  exact ⟨w, w', h, C68_false_vector_assign (C := vthC) demoL_WF vthC_one hV h0 h1 (by decide) (by decide) h⟩

end LFA.Props
