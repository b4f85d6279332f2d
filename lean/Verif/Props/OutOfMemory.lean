import Verif.OutOfMemory
import Verif.GridObs
import Verif.Props.Grid2
import Verif.Props.ThrowingVectorLeak

/-
  C69: grids and vectors if memory runs out.
-/
set_option linter.unusedSectionVars false
set_option linter.unusedVariables false
namespace LFA.Props
open LFA

section
variable {V : Type} [DecidableEq V] {C : Cfg V} {dv : V}

/-! ### Grids -/

theorem oom_new_ok {d : Ext} {h : Heap V} {e : Ext} (hd : d ≠ ⟨0, 0, 0⟩) (hs : selectSizes C.tr d = .ok e) : Oom.new C d h = .ok (some h) := by
  unfold Oom.new Oom.resize
  rw [if_neg (fun hh => hd (by
    obtain ⟨x, y, z⟩ := d
    obtain ⟨rfl, rfl, rfl⟩ : 0 = x ∧ 0 = y ∧ 0 = z := hh
    rfl))]
  simp only [Throwing.Vec.blank, Grid.destroyAndDeallocate, hs]
  rfl

/-- The constructors of grids do not change anything if they fail. -/
theorem oom_new_same {d : Ext} {h h' : Heap V} (hr : Oom.new C d h = .ok (some h')) : h' = h := by
  unfold Oom.new Oom.resize at hr
  split at hr
  · cases hr
  · simp only [Throwing.Vec.blank, Grid.destroyAndDeallocate] at hr
    split at hr
    · cases hr
    · cases hr; rfl

theorem oom_copy_same {o : Grid} {h h' : Heap V} (hr : Oom.copyCtor o h = .ok (some h')) : h' = h := by
  unfold Oom.copyCtor at hr
  split at hr
  · cases hr
  · cases hr; rfl

/-- C69: if there is no memory for a new grid then the constructor throws, and nothing has changed. Missing in comparison with C69: `resize`
    and assignment. -/
theorem C69_new_partial {w : World V} {s : Nat} (hs : w.g s = none) {d e : Ext} (hd : d ≠ ⟨0, 0, 0⟩) (he : selectSizes C.tr d = .ok e) :
    Oom.step C w (.new s d) = .ok (some w) := by
  simp only [Oom.step, Oom.step.ctor, hs, oom_new_ok hd he]
  rfl

/-- C69: so does the copy constructor. -/
theorem C69_copy_partial (hL : C.L.WF) {w : World V} (hV : Valid C dv w) {s t : Nat} (hs : w.g s = none) {d : Ext} (hd : DimsAre C w t d)
    (hne : d ≠ ⟨0, 0, 0⟩) : Oom.step C w (.copy s t) = .ok (some w) := by
  obtain ⟨a, hR⟩ := hV.refines hL
  obtain ⟨ag, hgs, rfl⟩ := hR.of_dims hd hne
  obtain ⟨g, q1, q2⟩ := hR.grid hgs
  obtain ⟨e, id, b, k1, k2, k3, k4, k5, _⟩ := q2.2
  simp only [Oom.step, Oom.step.withG, q1, Oom.step.ctor, hs, Oom.copyCtor, k5]
  rfl

/-- Constructors. -/
def IsCtor : Op V → Prop
  | .new _ _ | .copy _ _ => True
  | _ => False

theorem oom_ctor_same {w w' : World V} {op : Op V} (hc : IsCtor op) (h : Oom.step C w op = .ok (some w')) : w' = w := by
  have key : ∀ {s : Nat} {r : Except UB (Option (Heap V))}, (∀ h', r = .ok (some h') → h' = w.h) → Oom.step.ctor w s r = .ok (some w') → w' = w := by
    intro s r hr hh
    unfold Oom.step.ctor at hh
    split at hh
    · cases hh
    · cases r with
      | error x => cases hh
      | ok o =>
        cases o with
        | none => cases hh
        | some h' => cases hh; rw [hr h' rfl]
  cases op with
  | new s d => exact key (fun h' hr => oom_new_same hr) h
  | copy s t =>
    simp only [Oom.step, Oom.step.withG] at h
    split at h
    · cases h
    · exact key (fun h' hr => oom_copy_same hr) h
  | _ => exact absurd hc id

/-- The operations which took place. -/
def done {α β : Type} : List α → List (Option β) → List α
  | a :: l, some _ :: o => a :: done l o
  | _ :: l, none :: o => done l o
  | _, _ => []

/-- C69: a program which runs out of memory in constructors only, and which goes on, observes what it observes without these constructors.
    Missing in comparison with C69: `resize` and assignment. -/
theorem C69_history_partial {ops : List (Op V × Bool)} (hc : ∀ p ∈ ops, p.2 = true → IsCtor p.1) {w w' : World V} {outs : List (Option (Out V))}
    (h : Oom.run C w ops = .ok (w', outs)) : w.run C (done (ops.map Prod.fst) outs) = .ok (w', outs.filterMap id) := by
  induction ops generalizing w outs with
  | nil => cases h; rfl
  | cons p ops ih =>
    obtain ⟨op, f⟩ := p
    have hc' := fun q hq => hc q (List.mem_cons_of_mem _ hq)
    simp only [Oom.run] at h
    cases ht : Oom.run.thrown C w op f with
    | error e => rw [ht] at h; cases h
    | ok r =>
      rw [ht] at h
      cases r with
      | some w1 =>
        simp only at h
        cases hr : Oom.run C w1 ops with
        | error e => rw [hr] at h; cases h
        | ok q =>
          rw [hr] at h
          cases h
          have e : w1 = w := by
            unfold Oom.run.thrown at ht
            cases f with
            | false => cases ht
            | true => exact oom_ctor_same (hc _ List.mem_cons_self rfl) ht
          subst e
          exact ih hc' hr
      | none =>
        simp only at h
        cases hst : w.step C op with
        | error e => rw [hst] at h; cases h
        | ok q =>
          obtain ⟨w1, out⟩ := q
          rw [hst] at h
          simp only at h
          cases hr : Oom.run C w1 ops with
          | error e => rw [hr] at h; cases h
          | ok q =>
            rw [hr] at h
            cases h
            have := ih hc' hr
            show World.run C w (op :: done (ops.map Prod.fst) q.2) = _
            simp only [World.run, hst, this]
            rfl

/-- What is left of a grid with cells whose `resize` could not get memory. -/
theorem oom_resize {h h' : Heap V} {g : Grid} {id : Nat} (h1 : g.data = some id) (h2 : g.destroyAndDeallocate C h = .ok () h')
    (h3 : h'.blk id = none) {d e : Ext} (hne : g.dim ≠ d) (he : selectSizes C.tr d = .ok e) :
    ∃ g', Oom.resize C g d h = .ok (some (g', h')) ∧ g'.dim = d ∧ g'.dtor C h' = .ub .dangling := by
  refine ⟨{ g with dim := d, ex := some e.x, ey := some e.y, ez := some e.z, bs := some (byteSizeOf C.L e) }, ?_, rfl, ?_⟩
  · unfold Oom.resize
    rw [if_neg (fun hh => hne (by cases hgd : g.dim; cases d; simp_all))]
    simp only [h2, he]
  · simp only [Grid.dtor, Grid.destroyAndDeallocate, h1, Grid.callbackMut, he, onBuffer, h3, Res.bind]

/-- C69 is false of `resize`: without memory the old cells are gone nevertheless, the grid reports the new dimensions, and destroying it
    accesses the old buffer, which has been deallocated. -/
theorem C69_false_resize (hL : C.L.WF) {w : World V} (hV : Valid C dv w) {s : Nat} {d0 d e : Ext} (hd : DimsAre C w s d0)
    (hd0 : d0 ≠ ⟨0, 0, 0⟩) (hne : d0 ≠ d) (he : selectSizes C.tr d = .ok e) :
    ∃ w', Oom.step C w (.resize s d) = .ok (some w') ∧ DimsAre C w' s d ∧ w'.step C (.destroy s) = .error .dangling := by
  obtain ⟨a, hR⟩ := hV.refines hL
  obtain ⟨ag, hgs, rfl⟩ := hR.of_dims hd hd0
  obtain ⟨g, q1, q2⟩ := hR.grid hgs
  obtain ⟨id, h', p1, p2, _, p4, _⟩ := q2.destroy hL
  obtain ⟨g', k1, k2, k5⟩ := oom_resize p1 p2 p4 (by rw [q2.1]; exact hne) he
  refine ⟨⟨h', World.upd w.g s (some g')⟩, by simp only [Oom.step, Oom.step.withG, q1, Oom.step.upd, k1]; rfl, ?_, ?_⟩
  · simp only [DimsAre, World.step, World.withG, upd_self, k2]
  · simp only [World.step, World.withG, upd_self, k5]

/-- C69 is false of `operator=` between grids of different dimensions. -/
theorem C69_false_assign (hL : C.L.WF) {w : World V} (hV : Valid C dv w) {s t : Nat} {d0 d : Ext} (hd : DimsAre C w s d0)
    (hd0 : d0 ≠ ⟨0, 0, 0⟩) (ht : DimsAre C w t d) (hd1 : d ≠ ⟨0, 0, 0⟩) (hne : d0 ≠ d) :
    ∃ w', Oom.step C w (.assign s t) = .ok (some w') ∧ DimsAre C w' s d ∧ w'.step C (.destroy s) = .error .dangling := by
  obtain ⟨a, hR⟩ := hV.refines hL
  obtain ⟨ag, hgs, rfl⟩ := hR.of_dims hd hd0
  obtain ⟨g, q1, q2⟩ := hR.grid hgs
  obtain ⟨ag', hgs', rfl⟩ := hR.of_dims ht hd1
  obtain ⟨o, o1, o2⟩ := hR.grid hgs'
  obtain ⟨e, _, _, he, _⟩ := o2.2
  obtain ⟨id, h', p1, p2, _, p4, _⟩ := q2.destroy hL
  obtain ⟨g', k1, k2, k5⟩ := oom_resize p1 p2 p4 (by rw [q2.1]; exact hne) he
  refine ⟨⟨h', World.upd w.g s (some g')⟩, by simp only [Oom.step, Oom.step.withG, q1, o1, o2.1, Oom.step.upd, k1]; rfl, ?_, ?_⟩
  · simp only [DimsAre, World.step, World.withG, upd_self, k2]
  · simp only [World.step, World.withG, upd_self, k5]

/-- Nothing can be written without memory. -/
theorem set_null {m : Member V} {L : Layout V} (hs : 0 < m.ty.size) (hn : 0 < m.elems) (e : Ext) (c : Cell V) (x y z : Nat) :
    setFunctor (m :: L) e 1 [c] x y z 1 (Block.fresh 0) = .error .oob := by
  have ha : ∀ (a : Int) (v : V), (Block.fresh 0 : Block V).assign a m.ty v = .error .oob := fun a v => by
    unfold Block.assign
    rw [if_neg]
    have h0 : (Block.fresh 0 : Block V).size = 0 := rfl
    simp only [Block.inB, h0, decide_eq_true_eq, Bool.and_eq_true]
    omega
  have hl : ∀ (n : Nat) (f : Nat → Int) (g : Nat → V), 0 < n →
      loopM n (fun k b => b.assign (f k) m.ty (g k)) (Block.fresh 0 : Block V) = .error .oob := by
    intro n f g hn
    induction n with
    | zero => omega
    | succ n ih =>
      rw [loopM_succ]
      rcases Nat.eq_zero_or_pos n with rfl | h
      · rw [loopM_zero]
        exact ha _ _
      · rw [ih h]; rfl
  have hset : ∀ A : Acc, A.setCell (m :: L) c (Block.fresh 0) = .error .oob := by
    intro A
    unfold Acc.setCell forEach
    unfold Member.elems at hn
    cases har : m.arity with
    | none => simp only [ha]; rfl
    | some n =>
      rw [har] at hn
      simp only [hl n _ _ hn]
      rfl
  unfold setFunctor walk
  rw [loopM_succ, loopM_zero]
  show Except.map Prod.snd (Except.map _ ((accAt e (genIndex e x y z)).setCell (m :: L) c (Block.fresh 0))) = _
  rw [hset]
  rfl

/-- C69 for default constructed grids: after `resize` has run out of memory the grid can be destroyed. Missing in comparison with C69: the
    grid reports the new dimensions, see `C69_false_retry`. -/
theorem C69_blank_partial {w : World V} {s : Nat} (hs : w.g s = none) {d e : Ext} (hne : d ≠ ⟨0, 0, 0⟩) (he : selectSizes C.tr d = .ok e) :
    ∃ w1 w2 w3, w.step C (.new s ⟨0, 0, 0⟩) = .ok (w1, .unit) ∧ Oom.step C w1 (.resize s d) = .ok (some w2) ∧
      w2.step C (.destroy s) = .ok (w3, .unit) ∧ w3.h = w.h ∧ ∀ t, w3.g t = w.g t := by
  refine ⟨⟨w.h, World.upd w.g s (some ⟨⟨0, 0, 0⟩, none, none, none, none, none⟩)⟩, ⟨w.h, World.upd (World.upd w.g s
    (some ⟨⟨0, 0, 0⟩, none, none, none, none, none⟩)) s (some ⟨d, some e.x, some e.y, some e.z, some (byteSizeOf C.L e), none⟩)⟩,
    ⟨w.h, World.upd (World.upd (World.upd w.g s (some ⟨⟨0, 0, 0⟩, none, none, none, none, none⟩)) s
      (some ⟨d, some e.x, some e.y, some e.z, some (byteSizeOf C.L e), none⟩)) s none⟩, ?_, ?_, ?_, rfl, fun t => ?_⟩
  · simp only [World.step, hs, Grid.new, Grid.resize, and_self, if_true, World.ofCtor]
  · simp only [Oom.step, Oom.step.withG, upd_self, Oom.step.upd, Oom.resize, Grid.destroyAndDeallocate, he]
    rw [if_neg (fun hh => hne (by
      obtain ⟨x, y, z⟩ := d
      obtain ⟨rfl, rfl, rfl⟩ : 0 = x ∧ 0 = y ∧ 0 = z := hh
      rfl))]
    rfl
  · simp only [World.step, World.withG, upd_self, Grid.dtor, Grid.destroyAndDeallocate]
  · by_cases ht : t = s
    · subst ht; simp only [upd_self, hs]
    · simp only [World.upd, if_neg ht]

/-- C69 is false of `resize` of default constructed grids: a second attempt returns without an exception, but there is still no memory, and
    the first access is out of bounds. -/
theorem C69_false_retry (hL : C.L.WF) (hne : C.L ≠ []) {w : World V} {s : Nat} (hs : w.g s = none) {d e : Ext} (hd : d ≠ ⟨0, 0, 0⟩)
    (he : selectSizes C.tr d = .ok e) :
    ∃ w1 w2, w.step C (.new s ⟨0, 0, 0⟩) = .ok (w1, .unit) ∧ Oom.step C w1 (.resize s d) = .ok (some w2) ∧
      w2.step C (.resize s d) = .ok (w2, .unit) ∧ DimsAre C w2 s d ∧ w2.h = w.h ∧
      ∀ (c : Cell V) (x y z : Nat), w2.step C (.set s x y z [c]) = .error .oob := by
  obtain ⟨w1, w2, w3, k1, k2, -⟩ := C69_blank_partial (C := C) hs hd he
  have e1 : w1 = ⟨w.h, World.upd w.g s (some ⟨⟨0, 0, 0⟩, none, none, none, none, none⟩)⟩ := by
    simp only [World.step, hs, Grid.new, Grid.resize, and_self, if_true, World.ofCtor] at k1
    cases k1; rfl
  have e2 : w2 = ⟨w.h, World.upd w1.g s (some ⟨d, some e.x, some e.y, some e.z, some (byteSizeOf C.L e), none⟩)⟩ := by
    rw [e1] at k2 ⊢
    simp only [Oom.step, Oom.step.withG, upd_self, Oom.step.upd, Oom.resize, Grid.destroyAndDeallocate, he] at k2
    rw [if_neg (fun hh => hd (by
      obtain ⟨x, y, z⟩ := d
      obtain ⟨rfl, rfl, rfl⟩ : 0 = x ∧ 0 = y ∧ 0 = z := hh
      rfl))] at k2
    cases k2; rfl
  refine ⟨w1, w2, k1, k2, ?_, ?_, by rw [e2], fun c x y z => ?_⟩
  · rw [e2]
    simp only [World.step, World.withG, upd_self, Grid.resize, and_self, if_true, World.ofGS]
    congr 3
    funext t
    simp only [World.upd]
    split <;> rfl
  · rw [e2]; simp only [DimsAre, World.step, World.withG, upd_self]
  · rw [e2]
    simp only [World.step, World.withG, upd_self, Grid.set, Grid.callbackMut, he, onBuffer, List.length_singleton]
    cases hl : C.L with
    | nil => exact absurd hl hne
    | cons m L' =>
      obtain ⟨p1, p2⟩ := hL m (by rw [hl]; exact List.mem_cons_self)
      rw [set_null p1 p2]
      rfl

/-! ### Vectors -/

/-- C69: if there is no memory for a new vector then nothing has changed. Missing in comparison with C69: assignment, and the second
    allocation of `reserve`. -/
theorem C69_vector_new_partial {w : VecWorld V} {s : Nat} (hs : w.v s = none) {m : Nat} {e : Ext} (he : selectSizes C.tr ⟨m, 1, 1⟩ = .ok e)
    (c : Cell V) : Oom.Vec.step C w 0 (.new s m) = .ok (some w) ∧ Oom.Vec.step C w 0 (.newFill s m c) = .ok (some w) := by
  constructor <;>
  · simp only [Oom.Vec.step, Oom.Vec.step.ctor, hs, oom_new_ok (C := C) (d := ⟨m, 1, 1⟩) (by simp) he, if_true]
    rfl

/-- What a vector is. -/
theorem vec_slot {w : VecWorld V} {σ : VecSpec.State V} (hR : VR C w σ) {s : Nat} {v : SVec} (hv : w.v s = some v) :
    ∃ a, σ s = some a ∧ VecOK C w.h v.g a ∧ v.n = a.n := by
  cases hσ : σ s with
  | none => rw [hR.absent hσ] at hv; cases hv
  | some a =>
    obtain ⟨g, hg1, hg2⟩ := hR.vec hσ
    rw [hg1] at hv; cases hv
    exact ⟨a, rfl, hg2, rfl⟩

theorem C69_vector_copy_partial (hL : C.L.WF) (h1 : OneD C.tr) {w : VecWorld V} (hV : VecReach C dv w) {s t N : Nat} (hs : w.v s = none)
    (ht : w.step C (.size t) = .ok (w, .nat N)) : Oom.Vec.step C w 0 (.copy s t) = .ok (some w) := by
  obtain ⟨σ, hR⟩ := hV.refines hL h1
  cases hv : w.v t with
  | none => simp only [VecWorld.step, VecWorld.withV, hv] at ht; cases ht
  | some v =>
    obtain ⟨a, -, ha, -⟩ := vec_slot hR hv
    simp only [Oom.Vec.step, Oom.Vec.step.withV, hv, Oom.Vec.step.ctor, hs, Oom.copyCtor, ha.bs, if_true]
    rfl

theorem vupd_same {w : VecWorld V} {s : Nat} {v : SVec} (hv : w.v s = some v) : World.upd w.v s (some v) = w.v := by
  funext t
  simp only [World.upd]
  split
  · next h => rw [h, hv]
  · rfl

/-- C69: if there is no memory for the first buffer of `reserve` then the vector is what it was. -/
theorem C69_vector_reserve_partial {w : VecWorld V} {s N : Nat} (hs : w.step C (.size s) = .ok (w, .nat N)) {m : Nat} {e : Ext}
    (he : selectSizes C.tr ⟨m, 1, 1⟩ = .ok e) : Oom.Vec.step C w 0 (.reserve s m) = .ok (some w) := by
  cases hv : w.v s with
  | none => simp only [VecWorld.step, VecWorld.withV, hv] at hs; cases hs
  | some v =>
    simp only [Oom.Vec.step, Oom.Vec.step.withV, hv, Oom.Vec.reserve, if_true, oom_new_ok (C := C) (d := ⟨m, 1, 1⟩) (by simp) he, Oom.Vec.step.upd]
    show Except.ok (some (⟨w.h, World.upd w.v s (some v)⟩ : VecWorld V)) = _
    rw [vupd_same hv]

/-- So is it if `resize` has to grow the vector. -/
theorem C69_vector_resize_partial {w : VecWorld V} {s N : Nat} (hs : w.step C (.capacity s) = .ok (w, .nat N)) {m : Nat} (hm : N < m) {e : Ext}
    (he : selectSizes C.tr ⟨m, 1, 1⟩ = .ok e) : Oom.Vec.step C w 0 (.resize s m) = .ok (some w) := by
  cases hv : w.v s with
  | none => simp only [VecWorld.step, VecWorld.withV, hv] at hs; cases hs
  | some v =>
    simp only [VecWorld.step, VecWorld.withV, hv] at hs
    have hN : v.g.dim.x = N := by injection hs with hs; injection hs with _ hs; injection hs
    simp only [Oom.Vec.step, Oom.Vec.step.withV, hv, Oom.Vec.reserve, if_true, oom_new_ok (C := C) (d := ⟨m, 1, 1⟩) (by simp) he, Oom.Vec.step.upd,
      if_pos (show m > v.g.dim.x by omega)]
    show Except.ok (some (⟨w.h, World.upd w.v s (some v)⟩ : VecWorld V)) = _
    rw [vupd_same hv]

/-- So is it after `push_back` on a full vector. -/
theorem C69_vector_push_partial {w : VecWorld V} {s : Nat} {v : SVec} {c : Cell V} (hv : w.v s = some v) (hfull : v.g.ex = some v.n) {e : Ext}
    (he : selectSizes C.tr ⟨grow v.n, 1, 1⟩ = .ok e) : Oom.Vec.step C w 0 (.push s c) = .ok (some w) := by
  simp only [Oom.Vec.step, Oom.Vec.step.withV, hv, hfull, if_true, Oom.Vec.reserve, oom_new_ok (C := C) (d := ⟨grow v.n, 1, 1⟩) (by simp) he,
    Oom.Vec.step.upd]
  show Except.ok (some (⟨w.h, World.upd w.v s (some v)⟩ : VecWorld V)) = _
  rw [vupd_same hv]

/-- Assignments. -/
def IsAssign : VecOp V → Prop
  | .assign _ _ => True
  | _ => False

theorem oom_vec_same {w w' : VecWorld V} {op : VecOp V} (hc : ¬ IsAssign op) (h : Oom.Vec.step C w 0 op = .ok (some w')) : w' = w := by
  have ctor : ∀ {s : Nat} {r : Except UB (Option (Heap V))}, (∀ h', r = .ok (some h') → h' = w.h) → Oom.Vec.step.ctor w s r = .ok (some w') →
      w' = w := by
    intro s r hr hh
    unfold Oom.Vec.step.ctor at hh
    split at hh
    · cases hh
    · cases r with
      | error x => cases hh
      | ok o =>
        cases o with
        | none => cases hh
        | some h' => cases hh; rw [hr h' rfl]
  have upd : ∀ {s m : Nat} {v : SVec}, w.v s = some v →
      Oom.Vec.step.upd w s ((Oom.Vec.reserve C m 0 w.h).map (Option.map fun h => (v, h))) = .ok (some w') → w' = w := by
    intro s m v hv hh
    simp only [Oom.Vec.reserve, if_true] at hh
    cases hr : Oom.new C ⟨m, 1, 1⟩ w.h with
    | error x => rw [hr] at hh; cases hh
    | ok o =>
      rw [hr] at hh
      cases o with
      | none => cases hh
      | some h' =>
        cases hh
        rw [oom_new_same hr]
        show (⟨w.h, World.upd w.v s (some v)⟩ : VecWorld V) = w
        rw [vupd_same hv]
  cases op with
  | new s m =>
    simp only [Oom.Vec.step, if_true] at h
    exact ctor (fun h' hr => oom_new_same hr) h
  | newFill s m c =>
    simp only [Oom.Vec.step, if_true] at h
    exact ctor (fun h' hr => oom_new_same hr) h
  | copy s t =>
    simp only [Oom.Vec.step, Oom.Vec.step.withV, if_true] at h
    split at h
    · cases h
    · exact ctor (fun h' hr => oom_copy_same hr) h
  | assign s t => exact absurd trivial hc
  | reserve s m =>
    simp only [Oom.Vec.step, Oom.Vec.step.withV] at h
    split at h
    · cases h
    · next v hv => exact upd hv h
  | resize s m =>
    simp only [Oom.Vec.step, Oom.Vec.step.withV] at h
    split at h
    · cases h
    · next v hv =>
      split at h
      · exact upd hv h
      · cases h
  | push s c =>
    simp only [Oom.Vec.step, Oom.Vec.step.withV] at h
    split at h
    · cases h
    · next v hv =>
      split at h
      · cases h
      · split at h
        · exact upd hv h
        · cases h
  | _ => cases h

/-- C69: a program with vectors which fails to get memory at the first attempt of an operation, and which goes on, observes what it observes
    without these operations. Missing in comparison with C69: assignment, and the second allocation of `reserve`, `resize` and
    `push_back`. -/
theorem C69_vector_history_partial {ops : List (VecOp V × Option Nat)} (hc : ∀ p ∈ ops, ∀ k, p.2 = some k → k = 0 ∧ ¬ IsAssign p.1)
    {w w' : VecWorld V} {outs : List (Option (ArrOut V))} (h : Oom.Vec.run C w ops = .ok (w', outs)) :
    w.run C (done (ops.map Prod.fst) outs) = .ok (w', outs.filterMap id) := by
  induction ops generalizing w outs with
  | nil => cases h; rfl
  | cons p ops ih =>
    obtain ⟨op, f⟩ := p
    have hc' := fun q hq => hc q (List.mem_cons_of_mem _ hq)
    simp only [Oom.Vec.run] at h
    cases ht : Oom.Vec.run.thrown C w op f with
    | error e => rw [ht] at h; cases h
    | ok r =>
      rw [ht] at h
      cases r with
      | some w1 =>
        simp only at h
        cases hr : Oom.Vec.run C w1 ops with
        | error e => rw [hr] at h; cases h
        | ok q =>
          rw [hr] at h
          cases h
          have e : w1 = w := by
            unfold Oom.Vec.run.thrown at ht
            cases f with
            | none => cases ht
            | some k =>
              obtain ⟨rfl, k2⟩ := hc _ List.mem_cons_self k rfl
              exact oom_vec_same k2 ht
          subst e
          exact ih hc' hr
      | none =>
        simp only at h
        cases hst : w.step C op with
        | error e => rw [hst] at h; cases h
        | ok q =>
          obtain ⟨w1, out⟩ := q
          rw [hst] at h
          simp only at h
          cases hr : Oom.Vec.run C w1 ops with
          | error e => rw [hr] at h; cases h
          | ok q =>
            rw [hr] at h
            cases h
            have := ih hc' hr
            show VecWorld.run C w (op :: done (ops.map Prod.fst) q.2) = _
            simp only [VecWorld.run, hst, this]
            rfl

theorem oom_reserve (hL : C.L.WF) (h1 : OneD C.tr) (dv : V) {h : Heap V} (hf : ∀ i, h.next ≤ i → h.blk i = none) {m : Nat} {e : Ext}
    (hs : selectSizes C.tr ⟨m, 1, 1⟩ = .ok e) (hm : m ≠ e.x) : Oom.Vec.reserve C m 1 h = .error .dangling := by
  obtain ⟨ng, h0, _, _, _, k1, k2, _⟩ := reserve_grid hL h1 hf hs dv
  obtain ⟨ng0, h00, v1, v2, v3, v4⟩ := new_vec hL h1 dv hf hs
  rw [k1] at v1
  obtain ⟨rfl, rfl⟩ : ng = ng0 ∧ h0 = h00 := by
    injection v1 with _ v1; injection v1 with v1 v1'; exact ⟨v1, v1'⟩
  obtain ⟨id, h', p1, p2, _, p4, _⟩ := v4.destroy hL
  obtain ⟨g', q1, q2, q3⟩ := oom_resize p1 p2 p4 (d := ⟨e.x, 1, 1⟩) (by rw [v4.dim]; exact fun hh => hm (by injection hh)) (h1.idem hs)
  simp only [Oom.Vec.reserve, k1, k2, q1, Throwing.Vec.unwound, q3, if_true]
  rfl

/-- C69 is false of `reserve`: it allocates memory twice, unless the capacity asked for happens to be the size of a buffer. If the second
    allocation fails then the destructor of the new grid accesses the first buffer, which has been deallocated. -/
theorem C69_false_vector_reserve (hL : C.L.WF) (h1 : OneD C.tr) {w : VecWorld V} (hV : VecReach C dv w) {s m : Nat} {e : Ext}
    (hs : selectSizes C.tr ⟨m, 1, 1⟩ = .ok e) (hm : m ≠ e.x) : Oom.Vec.step C w 1 (.reserve s m) = .error .dangling := by
  obtain ⟨σ, hR⟩ := hV.refines hL h1
  simp only [Oom.Vec.step, Oom.Vec.step.withV]
  cases hv : w.v s with
  | none => rfl
  | some v => simp only [oom_reserve hL h1 dv hR.fresh hs hm]; rfl

/-- The same goes for `push_back` on a full vector. -/
theorem C69_false_vector_push (hL : C.L.WF) (h1 : OneD C.tr) {w : VecWorld V} (hV : VecReach C dv w) {s : Nat} {v : SVec} {c : Cell V}
    {e : Ext} (hv : w.v s = some v) (hfull : v.g.ex = some v.n) (hs : selectSizes C.tr ⟨grow v.n, 1, 1⟩ = .ok e) (hm : grow v.n ≠ e.x) :
    Oom.Vec.step C w 1 (.push s c) = .error .dangling := by
  obtain ⟨σ, hR⟩ := hV.refines hL h1
  simp only [Oom.Vec.step, Oom.Vec.step.withV, hv, hfull, if_true, oom_reserve hL h1 dv hR.fresh hs hm]
  rfl

/-- C69 is false of `operator=` for vectors of different capacities: the vector shows the new capacity, the old size, and destroying it
    accesses the old buffer, which has been deallocated. -/
theorem C69_false_vector_assign (hL : C.L.WF) (h1 : OneD C.tr) {w : VecWorld V} (hV : VecReach C dv w) {s t N M n : Nat}
    (hs : w.step C (.capacity s) = .ok (w, .nat N)) (ht : w.step C (.capacity t) = .ok (w, .nat M)) (hne : N ≠ M)
    (hn : w.step C (.size s) = .ok (w, .nat n)) :
    ∃ w', Oom.Vec.step C w 0 (.assign s t) = .ok (some w') ∧ w'.step C (.capacity s) = .ok (w', .nat M) ∧ w'.step C (.size s) = .ok (w', .nat n) ∧
      w'.step C (.destroy s) = .error .dangling := by
  obtain ⟨σ, hR⟩ := hV.refines hL h1
  cases hv : w.v s with
  | none => simp only [VecWorld.step, VecWorld.withV, hv] at hs; cases hs
  | some v =>
    cases ho : w.v t with
    | none => simp only [VecWorld.step, VecWorld.withV, ho] at ht; cases ht
    | some o =>
      obtain ⟨a, -, ha, -⟩ := vec_slot hR hv
      obtain ⟨b, -, hb, -⟩ := vec_slot hR ho
      simp only [VecWorld.step, VecWorld.withV, hv] at hs hn
      simp only [VecWorld.step, VecWorld.withV, ho] at ht
      have e1 : v.g.dim.x = N := by injection hs with hs; injection hs with _ hs; injection hs
      have e2 : o.g.dim.x = M := by injection ht with ht; injection ht with _ ht; injection ht
      have e3 : v.n = n := by injection hn with hn; injection hn with _ hn; injection hn
      obtain ⟨id, h', p1, p2, _, p4, _⟩ := ha.destroy hL
      obtain ⟨g', q1, q2, q3⟩ := oom_resize (C := C) p1 p2 p4 (d := o.g.dim) (fun hh => hne (by rw [← e1, ← e2, hh])) (by rw [hb.dim]; exact hb.sel)
      refine ⟨⟨h', World.upd w.v s (some ⟨g', v.n⟩)⟩, ?_, ?_, ?_, ?_⟩
      · simp only [Oom.Vec.step, Oom.Vec.step.withV, hv, ho, if_true, q1, Oom.Vec.step.upd]
        rfl
      · simp only [VecWorld.step, VecWorld.withV, upd_self, q2, e2]
      · simp only [VecWorld.step, VecWorld.withV, upd_self, e3]
      · simp only [VecWorld.step, VecWorld.withV, upd_self, SVec.dtor, q3]

end

/-! ### Examples -/

example := C69_new_partial (C := demoC) (demo_free (s := 2) (by decide)) (d := ⟨7, 3, 2⟩) (by decide) rfl
example := C69_copy_partial demoL_WF demo_valid (demo_free (s := 2) (by decide)) demo_dims0 (by decide)
example := C69_blank_partial (C := demoC) (demo_free (s := 2) (by decide)) (d := ⟨7, 3, 2⟩) (by decide) rfl
example := C69_false_retry (C := demoC) demoL_WF (by decide) (demo_free (s := 2) (by decide)) (d := ⟨7, 3, 2⟩) (by decide) rfl
example := C69_false_resize demoL_WF demo_valid demo_dims0 (d := ⟨7, 3, 2⟩) (by decide) (by decide) rfl
example := C69_false_assign demoL_WF demo_valid demo_dims0 (by decide) demo_dims1 (by decide) (by decide)

/-- Grids of one cell. -/
def oomC : Cfg Int := ⟨demoL, .uniform1 [1], false⟩

/-- Two out of five constructors fail. -/
example : ∃ w, (World.init : World Int).run oomC [.new 0 ⟨1, 1, 1⟩, .dims 0, .copy 1 0] = .ok (w, [.unit, .triple ⟨1, 1, 1⟩, .unit]) ∧
    Oom.run oomC World.init [(.new 0 ⟨1, 1, 1⟩, true), (.new 0 ⟨1, 1, 1⟩, false), (.copy 1 0, true), (.dims 0, false), (.copy 1 0, false)] =
      .ok (w, [none, some .unit, none, some (.triple ⟨1, 1, 1⟩), some .unit]) := by
  have h : ∃ w, Oom.run oomC (World.init : World Int) [(.new 0 ⟨1, 1, 1⟩, true), (.new 0 ⟨1, 1, 1⟩, false), (.copy 1 0, true), (.dims 0, false),
    (.copy 1 0, false)] = .ok (w, [none, some .unit, none, some (.triple ⟨1, 1, 1⟩), some .unit]) := ⟨_, rfl⟩
  obtain ⟨w, h⟩ := h
  exact ⟨w, C69_history_partial (by simp [IsCtor]) h, h⟩

example := C69_vector_new_partial (C := vthC) (w := VecWorld.init) (s := 0) rfl (m := 6) (e := ⟨8, 1, 1⟩) rfl demoCell

/-- The state of `demo_throws_vector`: vector 1 is full. -/
example : ∃ w : VecWorld Int, VecReach vthC 0 w ∧ w.v 3 = none ∧ Oom.Vec.step vthC w 0 (.copy 3 1) = .ok (some w) ∧
    Oom.Vec.step vthC w 0 (.reserve 1 6) = .ok (some w) ∧ Oom.Vec.step vthC w 0 (.resize 1 6) = .ok (some w) ∧
    Oom.Vec.step vthC w 0 (.push 1 demoCell) = .ok (some w) ∧
    Oom.Vec.step vthC w 1 (.reserve 1 6) = .error .dangling ∧ Oom.Vec.step vthC w 1 (.push 1 demoCell) = .error .dangling ∧
    ∃ w', Oom.Vec.step vthC w 0 (.assign 2 1) = .ok (some w') ∧ w'.step vthC (.destroy 2) = .error .dangling := by
  obtain ⟨w, hV, -, ⟨l, hl, hlen⟩, ⟨k, hk, hlen'⟩, -, -, -, -, -, -, -, -, -, -, ⟨-, w3, h3⟩, v, hv, hn, hex⟩ := demo_throws_vector
  have hnone : w.v 3 = none := by
    cases h : w.v 3 with
    | none => rfl
    | some x => simp only [Throwing.Vec.step, Throwing.Vec.step.ctor, h] at h3; cases h3
  have hsz := hl.shows.size
  have hfull : v.g.ex = some v.n := by rw [hn]; exact hex
  obtain ⟨w', a1, -, -, a2⟩ := C69_false_vector_assign (C := vthC) demoL_WF vthC_one hV hk.cap hl.cap (by decide) hk.shows.size
  exact ⟨w, hV, hnone, C69_vector_copy_partial (C := vthC) demoL_WF vthC_one hV hnone hsz,
    C69_vector_reserve_partial (C := vthC) hsz (e := ⟨8, 1, 1⟩) rfl, C69_vector_resize_partial (C := vthC) hl.cap (by decide) (e := ⟨8, 1, 1⟩) rfl,
    C69_vector_push_partial (C := vthC) hv hfull (e := ⟨8, 1, 1⟩) (by rw [hn]; rfl),
    C69_false_vector_reserve (C := vthC) demoL_WF vthC_one hV (e := ⟨8, 1, 1⟩) rfl (by decide),
    C69_false_vector_push (C := vthC) demoL_WF vthC_one hV hv hfull (e := ⟨8, 1, 1⟩) (by rw [hn]; rfl) (by rw [hn]; decide), w', a1, a2⟩

example : ∃ w, (VecWorld.init : VecWorld Int).run vthC [.new 0 5, .size 0] = .ok (w, [.unit, .nat 5]) ∧
    Oom.Vec.run vthC VecWorld.init [(.new 0 5, some 0), (.new 0 5, none), (.push 0 demoCell, some 0), (.size 0, none)] =
      .ok (w, [none, some .unit, none, some (.nat 5)]) := by
  have h : ∃ w, Oom.Vec.run vthC (VecWorld.init : VecWorld Int) [(.new 0 5, some 0), (.new 0 5, none), (.push 0 demoCell, some 0), (.size 0, none)] =
      .ok (w, [none, some .unit, none, some (.nat 5)]) := ⟨_, rfl⟩
  obtain ⟨w, h⟩ := h
  exact ⟨w, C69_vector_history_partial (by simp [IsAssign]) h, h⟩

end LFA.Props
