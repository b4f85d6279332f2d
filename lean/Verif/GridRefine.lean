import Verif.GridProof

/-
  Refinement for programs with several grids: every history of contract-respecting operations runs without undefined
  behaviour and has exactly the effects given by the specification.
-/
set_option linter.unusedSectionVars false
namespace LFA

section
variable {V : Type} [DecidableEq V] {C : Cfg V}

/-- A grid variable and its specification. -/
def SlotOK (C : Cfg V) (h : Heap V) (go : Option Grid) : ASlot V → Prop
  | .absent => go = none
  | .blank => ∃ g, go = some g ∧ g.dim = ⟨0, 0, 0⟩ ∧ g.data = none
  | .grid a => ∃ g, go = some g ∧ GridOK C h g a

/-- The program state represents the arrays `a`; the heap contains exactly the buffers of the grids, each grid has its own,
    and no freed buffer contains a live object. -/
structure R (C : Cfg V) (w : World V) (a : AWorld V) : Prop where
  slots : ∀ s, SlotOK C w.h (w.g s) (a s)
  own : ∀ s s' g g' id, w.g s = some g → w.g s' = some g' → g.data = some id → g'.data = some id → s = s'
  live : ∀ id b, w.h.blk id = some b → ∃ s g, w.g s = some g ∧ g.data = some id
  fresh : ∀ id, w.h.next ≤ id → w.h.blk id = none
  clean : ∀ b ∈ w.h.freed, Clean b

open World (upd)

theorem upd_self {α : Type} (f : Nat → α) (s : Nat) (x : α) : upd f s x s = x := by simp [upd]
theorem upd_ne {α : Type} (f : Nat → α) {s t : Nat} (x : α) (h : t ≠ s) : upd f s x t = f t := by simp [upd, h]
theorem upd_id {α : Type} (f : Nat → α) (s : Nat) : upd f s (f s) = f := by
  funext t; by_cases h : t = s <;> simp [upd, h]

theorem R.grid {w : World V} {a : AWorld V} (hR : R C w a) {s : Nat} {ag : AGrid V} (hs : a s = .grid ag) :
    ∃ g, w.g s = some g ∧ GridOK C w.h g ag := by
  have := hR.slots s; rw [hs] at this; exact this

theorem R.blank {w : World V} {a : AWorld V} (hR : R C w a) {s : Nat} (hs : a s = .blank) :
    ∃ g, w.g s = some g ∧ g.dim = ⟨0, 0, 0⟩ ∧ g.data = none := by
  have := hR.slots s; rw [hs] at this; exact this

theorem R.absent {w : World V} {a : AWorld V} (hR : R C w a) {s : Nat} (hs : a s = .absent) : w.g s = none := by
  have := hR.slots s; rw [hs] at this; exact this

theorem SlotOK.frame {h h' : Heap V} {go : Option Grid} {as : ASlot V} (hs : SlotOK C h go as)
    (hf : ∀ g id, go = some g → g.data = some id → h'.blk id = h.blk id) : SlotOK C h' go as := by
  cases as with
  | absent => exact hs
  | blank => exact hs
  | grid a =>
    obtain ⟨g, h1, h2⟩ := hs
    exact ⟨g, h1, h2.frame (fun id hid => hf g id h1 hid)⟩

/-- A live grid's buffer is allocated. -/
theorem R.data_live {w : World V} {a : AWorld V} (hR : R C w a) {s : Nat} {g : Grid} {id : Nat} (hg : w.g s = some g)
    (hid : g.data = some id) : ∃ b, w.h.blk id = some b := by
  have := hR.slots s
  cases ha : a s with
  | absent => rw [ha] at this; rw [show w.g s = none from this] at hg; cases hg
  | blank =>
    rw [ha] at this; obtain ⟨g', h1, _, h3⟩ := this
    rw [hg] at h1; cases h1; rw [h3] at hid; cases hid
  | grid ag =>
    rw [ha] at this; obtain ⟨g', h1, h2⟩ := this
    rw [hg] at h1; cases h1
    obtain ⟨_, e, id', b, _, h3, h4, _⟩ := h2
    rw [h3] at hid; cases hid
    exact ⟨b, h4⟩

theorem R.data_lt {w : World V} {a : AWorld V} (hR : R C w a) {s : Nat} {g : Grid} {id : Nat} (hg : w.g s = some g)
    (hid : g.data = some id) : id < w.h.next := by
  obtain ⟨b, hb⟩ := hR.data_live hg hid
  by_contra hge
  rw [hR.fresh id (by omega)] at hb; cases hb

/-- Change of one variable. -/
theorem R.slot {w : World V} {a : AWorld V} (hR : R C w a) (s : Nat) (go : Option Grid) (as : ASlot V) (h' : Heap V)
    (hslot : SlotOK C h' go as)
    (hkeep : ∀ t g id, t ≠ s → w.g t = some g → g.data = some id → h'.blk id = w.h.blk id)
    (hown : ∀ t g id g', t ≠ s → w.g t = some g → g.data = some id → go = some g' → g'.data ≠ some id)
    (hlive : ∀ id b, h'.blk id = some b → (∃ g', go = some g' ∧ g'.data = some id) ∨
      ∃ t g, t ≠ s ∧ w.g t = some g ∧ g.data = some id)
    (hfresh : ∀ id, h'.next ≤ id → h'.blk id = none)
    (hclean : ∀ b ∈ h'.freed, Clean b) : R C ⟨h', upd w.g s go⟩ (upd a s as) := by
  refine ⟨?_, ?_, ?_, hfresh, hclean⟩
  · intro t
    by_cases ht : t = s
    · subst ht; simp only [upd_self]; exact hslot
    · simp only [upd_ne _ _ ht]
      exact (hR.slots t).frame (fun g id hg hid => hkeep t g id ht hg hid)
  · intro t t' g g' id hg hg' hid hid'
    by_cases ht : t = s
    · by_cases ht' : t' = s
      · rw [ht, ht']
      · subst ht
        simp only [upd_self] at hg
        simp only [upd_ne _ _ ht'] at hg'
        exact absurd hid (hown t' g' id g ht' hg' hid' hg)
    · simp only [upd_ne _ _ ht] at hg
      by_cases ht' : t' = s
      · subst ht'
        simp only [upd_self] at hg'
        exact absurd hid' (hown t g id g' ht hg hid hg')
      · simp only [upd_ne _ _ ht'] at hg'
        exact hR.own t t' g g' id hg hg' hid hid'
  · intro id b hb
    rcases hlive id b hb with ⟨g', h1, h2⟩ | ⟨t, g, ht, h1, h2⟩
    · exact ⟨s, g', by simp only [upd_self]; exact h1, h2⟩
    · exact ⟨t, g, by simp only [upd_ne _ _ ht]; exact h1, h2⟩

/-- Only the buffer of `s` was modified. -/
theorem R.setBlock {w : World V} {a : AWorld V} (hR : R C w a) {s : Nat} {g : Grid} {id : Nat} (hg : w.g s = some g)
    (hid : g.data = some id) {b' : Block V} {ag : AGrid V} (hok : GridOK C (w.h.set id b') g ag) :
    R C ⟨w.h.set id b', w.g⟩ (upd a s (.grid ag)) := by
  have key := hR.slot s (some g) (.grid ag) (w.h.set id b') ⟨g, rfl, hok⟩ ?_ ?_ ?_ ?_ hR.clean
  · rw [← hg, upd_id] at key; exact key
  · intro t g' id' ht hg' hid'
    apply Heap.blk_set_ne
    rintro rfl
    exact ht (hR.own t s g' g _ hg' hg hid' hid)
  · intro t g' id' g'' ht hg' hid' he hid''
    cases he
    exact ht (hR.own t s g' g id' hg' hg hid' hid'')
  · intro id' b hb
    by_cases he : id' = id
    · subst he; exact .inl ⟨g, rfl, hid⟩
    · rw [Heap.blk_set_ne _ _ he] at hb
      obtain ⟨t, g', h1, h2⟩ := hR.live id' b hb
      refine .inr ⟨t, g', ?_, h1, h2⟩
      rintro rfl
      rw [hg] at h1; cases h1
      rw [hid] at h2; cases h2; exact he rfl
  · intro id' hge
    by_cases he : id' = id
    · subst he; exact absurd (hR.data_lt hg hid) (by simp only [Heap.set] at hge; omega)
    · rw [Heap.blk_set_ne _ _ he]; exact hR.fresh id' hge

theorem Realloc.set {h h' : Heap V} {old : Option Nat} (hr : Realloc h h' old) (b : Block V) :
    Realloc h (h'.set h.next b) old :=
  ⟨hr.next, fun i h1 h2 => by rw [Heap.blk_set_ne _ _ h2]; exact hr.gone i h1 h2,
   fun i h1 h2 => by rw [Heap.blk_set_ne _ _ h2]; exact hr.kept i h1 h2, hr.clean⟩

/-- `s` now has a new buffer (its old one is gone, if there was any). -/
theorem R.realloc {w : World V} {a : AWorld V} (hR : R C w a) {s : Nat} {old : Option Nat}
    (hold : ∀ id, old = some id → ∃ g, w.g s = some g ∧ g.data = some id)
    (hold' : ∀ g id, w.g s = some g → g.data = some id → old = some id)
    {g' : Grid} {h' : Heap V} (hid : g'.data = some w.h.next)
    (hr : Realloc w.h h' old) {ag : AGrid V} (hok : GridOK C h' g' ag) :
    R C ⟨h', upd w.g s (some g')⟩ (upd a s (.grid ag)) := by
  refine hR.slot s (some g') (.grid ag) h' ⟨g', rfl, hok⟩ ?_ ?_ ?_ ?_ (hr.clean hR.clean)
  · intro t g id ht hg hid'
    have hlt := hR.data_lt hg hid'
    refine hr.kept id (fun ho => ?_) (by omega)
    obtain ⟨g0, h1, h2⟩ := hold id ho
    exact ht (hR.own t s g g0 id hg h1 hid' h2)
  · intro t g id g'' ht hg hid' he hid''
    cases he
    have hlt := hR.data_lt hg hid'
    rw [hid] at hid''; cases hid''; omega
  · intro id b hb
    by_cases hn : id = w.h.next
    · subst hn; exact .inl ⟨g', rfl, hid⟩
    · by_cases ho : old = some id
      · rw [hr.gone id ho hn] at hb; cases hb
      · rw [hr.kept id ho hn] at hb
        obtain ⟨t, g, h1, h2⟩ := hR.live id b hb
        refine .inr ⟨t, g, ?_, h1, h2⟩
        rintro rfl
        exact ho (hold' g id h1 h2)
  · intro id hge
    have := hr.next
    have hn : id ≠ w.h.next := by omega
    by_cases ho : old = some id
    · exact hr.gone id ho hn
    · rw [hr.kept id ho hn]; exact hR.fresh id (by omega)

/-! ### One operation -/

/-- Every operation called within its contract is free of undefined behaviour and does what the specification says. -/
theorem step_refines (hL : C.L.WF) (dv : V) {w : World V} {a : AWorld V} (hR : R C w a) (op : Op V)
    (hpre : Spec.Pre C a op) :
    ∃ w' out a', w.step C op = .ok (w', out) ∧ Spec.Post C dv a op a' out ∧ R C w' a' := by
  cases op with
  | new s d =>
    have hn := hR.absent hpre
    by_cases hd : d = ⟨0, 0, 0⟩
    · subst hd
      refine ⟨⟨w.h, upd w.g s (some ⟨⟨0, 0, 0⟩, none, none, none, none, none⟩)⟩, .unit, _, ?_, .newBlank a s, ?_⟩
      · simp [World.step, hn, Grid.new, Grid.resize, World.ofCtor]
      · refine hR.slot s _ .blank w.h ⟨_, rfl, rfl, rfl⟩ (fun _ _ _ _ _ _ => rfl) ?_ ?_ hR.fresh hR.clean
        · intro t g id g' _ _ _ he hid; cases he; cases hid
        · intro id b hb
          obtain ⟨t, g, h1, h2⟩ := hR.live id b hb
          refine .inr ⟨t, g, ?_, h1, h2⟩
          rintro rfl
          rw [hn] at h1; cases h1
    · cases hs : selectSizes C.tr d with
      | error x =>
        refine ⟨w, .threw x, a, ?_, .newFail a s d x hd hs, hR⟩
        have hd' : ¬ (0 = d.x ∧ 0 = d.y ∧ 0 = d.z) := by
          rintro ⟨h1, h2, h3⟩
          apply hd; cases d; simp_all
        simp [World.step, hn, Grid.new, Grid.resize, World.ofCtor, hd', Grid.destroyAndDeallocate, Res.withGrid,
          Res.bind, hs]
      | ok e =>
        obtain ⟨g', h', k1, k2, k3, k4⟩ := resize_blank (C := C) (h := w.h)
          (g := ⟨⟨0, 0, 0⟩, none, none, none, none, none⟩) hL rfl (fun h => hd h.symm) hs dv
        refine ⟨⟨h', upd w.g s (some g')⟩, .unit, _, ?_, .new a s d e hd hs, ?_⟩
        · simp only [World.step, hn, Grid.new, k1, World.ofCtor]
        · exact hR.realloc (fun id h => by cases h) (fun g id h1 h2 => by rw [hn] at h1; cases h1) k3 k4 k2
  | copy s t =>
    obtain ⟨hpa, o, hpt⟩ := hpre
    have hn := hR.absent hpa
    obtain ⟨og, ho1, ho2⟩ := hR.grid hpt
    have ho2' := ho2
    obtain ⟨q1, e, id, b, q2, q3, q4, q5, q6, q7, q8⟩ := ho2'
    let g : Grid := ⟨og.dim, none, none, none, some (byteSizeOf C.L e), some w.h.next⟩
    obtain ⟨b1, k1, k2⟩ := grid_init (h := w.h) hL q2 dv g q1 rfl rfl none (fun _ h => by cases h)
    have hid_lt := hR.data_lt ho1 q3
    have r1 : Realloc w.h ((w.h.alloc (byteSizeOf C.L e)).2.set w.h.next b1) none := by
      refine ⟨rfl, fun i hi => (nomatch hi), fun i _ hi => ?_, fun h => h⟩
      rw [Heap.blk_set_ne _ _ hi]; simp [Heap.alloc, hi]
    have ho3 : GridOK C ((w.h.alloc (byteSizeOf C.L e)).2.set w.h.next b1) og o :=
      ho2.frame (fun i hi => r1.kept i (fun h => nomatch h) (by rw [q3] at hi; cases hi; omega))
    obtain ⟨id2, b2, j1, j2, j3⟩ := k2.copyIn hL ho3 rfl (fun h => by
      have : og.data = some w.h.next := h.symm
      rw [q3] at this; cases this; omega)
    have : id2 = w.h.next := by
      have : some w.h.next = some id2 := j1
      cases this; rfl
    subst this
    refine ⟨⟨((w.h.alloc (byteSizeOf C.L e)).2.set w.h.next b1).set w.h.next b2, upd w.g s (some g)⟩, .unit, _, ?_,
      .copy a s t o hpt, ?_⟩
    rotate_left
    · exact hR.realloc (fun id h => by cases h) (fun g id h1 h2 => by rw [hn] at h1; cases h1) rfl (r1.set b2) j3
    · simp only [World.step, hn, World.withG, ho1, Grid.copyCtor, q6]
      have e1 : (w.h.alloc (byteSizeOf C.L e)).1 = w.h.next := rfl
      simp only [e1]
      show World.ofCtor w s ((Res.withGrid g (g.init C _)).bind _) = _
      rw [k1]
      simp only [Res.withGrid, Res.bind, j2, World.ofCtor]
  | assign s t =>
    obtain ⟨hpa, o, hpt⟩ := hpre
    obtain ⟨og, ho1, ho2⟩ := hR.grid hpt
    have hselO : ∃ e, selectSizes C.tr o.dim = .ok e := by obtain ⟨_, e, _, _, h, _⟩ := ho2; exact ⟨e, h⟩
    obtain ⟨e, hsel⟩ := hselO
    have hod := ho2.1
    cases has : a s with
    | absent => exact absurd has hpa
    | blank =>
      obtain ⟨g, hg1, hg2, hg3⟩ := hR.blank has
      by_cases hd0 : o.dim = ⟨0, 0, 0⟩
      · refine ⟨w, .unit, a, ?_, .assignBlank a s t o hpt has hd0, hR⟩
        obtain ⟨_, e', id, b, q2, q3, q4, _⟩ := ho2
        have hz : og.dim = ⟨0, 0, 0⟩ := by rw [hod]; exact hd0
        have hsame := resize_same (C := C) (h := w.h) (g := g) (d := og.dim) (by rw [hg2, hz])
        simp only [World.step, World.withG, hg1, ho1, Grid.assign, hsame, Res.bind]
        rw [hd0] at hsel
        have hc : g.copyIn C og w.h = .ok () (g, w.h) := by
          unfold Grid.copyIn Grid.dualCallback
          rw [hz, hg2, hsel]
          simp only [q3, Option.map_some, q4, hg3]
          cases C.asym <;> simp [onBuffer, copyFunctor, loopM, Res.withGrid]
        rw [hc]
        simp only [World.ofGS]
        rw [← hg1, upd_id]
      · obtain ⟨g', h', k1, k2, k3, k4⟩ := resize_blank (C := C) (h := w.h) (g := g) hL hg3
          (fun h => hd0 (by rw [← h, hg2])) hsel dv
        have hts : t ≠ s := by rintro rfl; rw [hpt] at has; cases has
        have ho3 : GridOK C h' og o := ho2.frame (fun i hi => k4.kept i (fun h => nomatch h) (by
          have := hR.data_lt ho1 hi; omega))
        obtain ⟨id2, b2, j1, j2, j3⟩ := k2.copyIn hL ho3 rfl (fun h => by
          rw [k3] at h
          have := hR.data_lt ho1 h.symm; omega)
        rw [k3] at j1; cases j1
        refine ⟨⟨h'.set w.h.next b2, upd w.g s (some g')⟩, .unit, _, ?_, .assign a s t o (some e) hpt (.inr ⟨?_, ?_, e, rfl, hsel⟩), ?_⟩
        · simp only [World.step, World.withG, hg1, ho1, Grid.assign, hod, k1, Res.bind, j2, World.ofGS]
        · intro g' h; rw [has] at h; cases h
        · intro _; exact hd0
        · exact hR.realloc (fun id h => by cases h)
            (fun g1 id h1 h2 => by rw [hg1] at h1; cases h1; rw [hg3] at h2; cases h2) k3 (k4.set b2) j3
    | grid ag =>
      obtain ⟨g, hg1, hg2⟩ := hR.grid has
      by_cases hd : ag.dim = o.dim
      · have hsame := resize_same (C := C) (h := w.h) (g := g) (d := og.dim) (by rw [hg2.1, hod, hd])
        obtain ⟨id2, b2, j1, j2, j3⟩ := hg2.copyIn hL ho2 hd (fun h => by
          obtain ⟨_, _, id, _, _, q3, _⟩ := ho2
          have hst := hR.own s t g og id hg1 ho1 (by rw [h, q3]) q3
          subst hst
          rw [hpt] at has; cases has; rfl)
        refine ⟨⟨w.h.set id2 b2, upd w.g s (some g)⟩, .unit, _, ?_,
          .assign a s t o ag.ext hpt (.inl ⟨ag, has, hd, rfl⟩), ?_⟩
        · simp only [World.step, World.withG, hg1, ho1, Grid.assign, hsame, Res.bind, j2, World.ofGS]
        · have := hR.setBlock hg1 j1 j3
          rw [← hg1, upd_id]
          have e1 : ({ ag with cells := o.cells } : AGrid V) = { o with ext := ag.ext } := by rw [← hd]
          rw [e1] at this
          exact this
      · obtain ⟨g', h', k1, k2, k3, k4⟩ := hg2.resize hL hd hsel dv
        have hts : t ≠ s := by rintro rfl; rw [hpt] at has; cases has; exact hd rfl
        have ho3 : GridOK C h' og o := ho2.frame (fun i hi => k4.kept i (fun h => by
          exact hts (hR.own t s og g i ho1 hg1 hi h)) (by have := hR.data_lt ho1 hi; omega))
        obtain ⟨id2, b2, j1, j2, j3⟩ := k2.copyIn hL ho3 rfl (fun h => by
          rw [k3] at h
          have := hR.data_lt ho1 h.symm; omega)
        rw [k3] at j1; cases j1
        refine ⟨⟨h'.set w.h.next b2, upd w.g s (some g')⟩, .unit, _, ?_, .assign a s t o (some e) hpt (.inr ⟨?_, ?_, e, rfl, hsel⟩), ?_⟩
        · simp only [World.step, World.withG, hg1, ho1, Grid.assign, hod, k1, Res.bind, j2, World.ofGS]
        · intro g' h; rw [has] at h; cases h; exact hd
        · intro h; rw [has] at h; cases h
        · exact hR.realloc (fun id h => ⟨g, hg1, h⟩) (fun g1 id h1 h2 => by rw [hg1] at h1; cases h1; exact h2) k3
            (k4.set b2) j3
  | swap s t =>
    obtain ⟨ag, ag', has, hat, hy, hz⟩ := hpre
    obtain ⟨g, hg1, hg2⟩ := hR.grid has
    obtain ⟨g', hg1', hg2'⟩ := hR.grid hat
    have hdim : g.dim = ag.dim := hg2.1
    have hdim' : g'.dim = ag'.dim := hg2'.1
    have hswap : Grid.swap g g' =
        (⟨ag'.dim, g'.ex, g.ey, g.ez, g'.bs, g'.data⟩, ⟨ag.dim, g.ex, g'.ey, g'.ez, g.bs, g.data⟩) := by
      simp only [Grid.swap, swapDimX, swapExtX, hdim, hdim', hy, hz]
      cases h1 : ag.dim; cases h2 : ag'.dim
      rw [h1, h2] at hy hz
      simp only at hy hz
      subst hy hz
      rfl
    have swapOK : ∀ {x y : Grid} {ax ay : AGrid V}, GridOK C w.h x ax → GridOK C w.h y ay →
        GridOK C w.h ⟨ay.dim, y.ex, x.ey, x.ez, y.bs, y.data⟩ { ay with ext := Spec.swapExt ax.ext ay.ext } := by
      rintro x y ax ay ⟨_, ex, _, _, _, _, _, _, _, _, x8⟩ ⟨_, e, id, b, y2, y3, y4, y5, y6, y7, y8⟩
      refine ⟨rfl, e, id, b, y2, y3, y4, y5, y6, y7, ?_⟩
      intro e' he'
      cases h1 : ax.ext with
      | none => rw [h1] at he'; simp [Spec.swapExt] at he'
      | some e1 =>
        cases h2 : ay.ext with
        | none => rw [h1, h2] at he'; simp [Spec.swapExt] at he'
        | some e2 =>
          obtain ⟨rfl, p1, p2, p3⟩ := x8 e1 h1
          obtain ⟨rfl, r1, r2, r3⟩ := y8 e2 h2
          rw [h1, h2] at he'
          unfold Spec.swapExt at he'
          simp only at he'
          split at he'
          · rename_i hc
            cases he'
            exact ⟨rfl, r1, by rw [p2, hc.1], by rw [p3, hc.2]⟩
          · cases he'
    refine ⟨⟨w.h, upd (upd w.g s (some ⟨ag'.dim, g'.ex, g.ey, g.ez, g'.bs, g'.data⟩)) t
      (some ⟨ag.dim, g.ex, g'.ey, g'.ez, g.bs, g.data⟩)⟩, .unit, _, ?_, .swap a s t ag ag' has hat, ?_⟩
    · simp only [World.step, World.withG, hg1, hg1', hswap]
    · -- which variable holds which buffer?
      have hdata : ∀ u (x : Grid), upd (upd w.g s (some ⟨ag'.dim, g'.ex, g.ey, g.ez, g'.bs, g'.data⟩)) t
          (some ⟨ag.dim, g.ex, g'.ey, g'.ez, g.bs, g.data⟩) u = some x →
          (u = t ∧ x.data = g.data) ∨ (u = s ∧ u ≠ t ∧ x.data = g'.data) ∨ (u ≠ s ∧ u ≠ t ∧ w.g u = some x) := by
        intro u x hx
        by_cases hut : u = t
        · subst hut; rw [upd_self] at hx; cases hx; exact .inl ⟨rfl, rfl⟩
        · rw [upd_ne _ _ hut] at hx
          by_cases hus : u = s
          · subst hus; rw [upd_self] at hx; cases hx; exact .inr (.inl ⟨rfl, hut, rfl⟩)
          · rw [upd_ne _ _ hus] at hx; exact .inr (.inr ⟨hus, hut, hx⟩)
      refine ⟨?_, ?_, ?_, hR.fresh, hR.clean⟩
      · intro u
        by_cases hut : u = t
        · subst hut; simp only [upd_self]
          exact ⟨_, rfl, swapOK hg2' hg2⟩
        · by_cases hus : u = s
          · subst hus; simp only [upd_ne _ _ hut, upd_self]
            exact ⟨_, rfl, swapOK hg2 hg2'⟩
          · simp only [upd_ne _ _ hut, upd_ne _ _ hus]
            exact hR.slots u
      · intro u u' x x' id hx hx' hid hid'
        rcases hdata u x hx with ⟨h1, h2⟩ | ⟨h1, h1', h2⟩ | ⟨h1, h1', h2⟩ <;>
        rcases hdata u' x' hx' with ⟨k1, k2⟩ | ⟨k1, k1', k2⟩ | ⟨k1, k1', k2⟩
        · rw [h1, k1]
        · rw [h2] at hid; rw [k2] at hid'
          have := hR.own s t g g' id hg1 hg1' hid hid'
          rw [h1, k1, this]
        · rw [h2] at hid
          exact absurd (hR.own s u' g x' id hg1 k2 hid hid').symm k1
        · rw [h2] at hid; rw [k2] at hid'
          have := hR.own s t g g' id hg1 hg1' hid' hid
          rw [h1, k1, this]
        · rw [h1, k1]
        · rw [h2] at hid
          exact absurd (hR.own t u' g' x' id hg1' k2 hid hid').symm k1'
        · rw [k2] at hid'
          exact absurd (hR.own s u g x id hg1 h2 hid' hid).symm h1
        · rw [k2] at hid'
          exact absurd (hR.own t u g' x id hg1' h2 hid' hid).symm h1'
        · exact hR.own u u' x x' id h2 k2 hid hid'
      · intro id b hb
        obtain ⟨u, x, h1, h2⟩ := hR.live id b hb
        by_cases hus : u = s
        · subst hus
          rw [hg1] at h1; cases h1
          exact ⟨t, _, upd_self _ _ _, h2⟩
        · by_cases hut : u = t
          · subst hut
            rw [hg1'] at h1; cases h1
            refine ⟨s, ⟨ag'.dim, g'.ex, g.ey, g.ez, g'.bs, g'.data⟩, ?_, h2⟩
            show upd _ _ _ s = _
            rw [upd_ne _ _ (Ne.symm hus), upd_self]
          · exact ⟨u, x, by simp only [upd_ne _ _ hut, upd_ne _ _ hus]; exact h1, h2⟩
  | resize s d =>
    cases has : a s with
    | absent => simp only [Spec.Pre, has] at hpre
    | blank =>
      simp only [Spec.Pre, has] at hpre
      obtain ⟨g, hg1, hg2, hg3⟩ := hR.blank has
      by_cases hd : d = ⟨0, 0, 0⟩
      · subst hd
        refine ⟨w, .unit, a, ?_, .resizeBlank a s has, hR⟩
        simp only [World.step, World.withG, hg1, resize_same hg2, World.ofGS]
        rw [← hg1, upd_id]
      · obtain ⟨e, he⟩ := hpre.resolve_left hd
        obtain ⟨g', h', k1, k2, k3, k4⟩ := resize_blank (C := C) (h := w.h) (g := g) hL hg3
          (fun h => hd (by rw [← h, hg2])) he dv
        refine ⟨⟨h', upd w.g s (some g')⟩, .unit, _, ?_, .resize a s d e (by rw [has]; exact fun h => nomatch h)
          (fun _ => hd) (fun g h => by rw [has] at h; cases h) he, ?_⟩
        · simp only [World.step, World.withG, hg1, k1, World.ofGS]
        · exact hR.realloc (fun id h => by cases h)
            (fun g1 id h1 h2 => by rw [hg1] at h1; cases h1; rw [hg3] at h2; cases h2) k3 k4 k2
    | grid ag =>
      simp only [Spec.Pre, has] at hpre
      obtain ⟨e, he⟩ := hpre
      obtain ⟨g, hg1, hg2⟩ := hR.grid has
      by_cases hd : ag.dim = d
      · subst hd
        refine ⟨w, .unit, a, ?_, .resizeSame a s ag has, hR⟩
        simp only [World.step, World.withG, hg1, resize_same hg2.1, World.ofGS]
        rw [← hg1, upd_id]
      · obtain ⟨g', h', k1, k2, k3, k4⟩ := hg2.resize hL hd he dv
        refine ⟨⟨h', upd w.g s (some g')⟩, .unit, _, ?_, .resize a s d e (by rw [has]; exact fun h => nomatch h)
          (fun h => by rw [has] at h; cases h) (fun g h => by rw [has] at h; cases h; exact fun h => hd h.symm) he, ?_⟩
        · simp only [World.step, World.withG, hg1, k1, World.ofGS]
        · exact hR.realloc (fun id h => ⟨g, hg1, h⟩) (fun g1 id h1 h2 => by rw [hg1] at h1; cases h1; exact h2) k3 k4 k2
  | destroy s =>
    cases has : a s with
    | absent => exact absurd has hpre
    | blank =>
      obtain ⟨g, hg1, hg2, hg3⟩ := hR.blank has
      refine ⟨⟨w.h, upd w.g s none⟩, .unit, _, ?_, .destroy a s, ?_⟩
      · simp [World.step, World.withG, hg1, Grid.dtor, Grid.destroyAndDeallocate, hg3]
      · refine hR.slot s none .absent w.h rfl (fun _ _ _ _ _ _ => rfl) (fun _ _ _ _ _ _ _ h => (nomatch h)) ?_
          hR.fresh hR.clean
        intro id b hb
        obtain ⟨t, g', h1, h2⟩ := hR.live id b hb
        refine .inr ⟨t, g', ?_, h1, h2⟩
        rintro rfl
        rw [hg1] at h1; cases h1; rw [hg3] at h2; cases h2
    | grid ag =>
      obtain ⟨g, hg1, hg2⟩ := hR.grid has
      obtain ⟨id, h', q0, q1, q2, q3, q4, bc, q5, q6⟩ := hg2.destroy hL
      refine ⟨⟨h', upd w.g s none⟩, .unit, _, ?_, .destroy a s, ?_⟩
      · simp [World.step, World.withG, hg1, Grid.dtor, q1]
      · refine hR.slot s none .absent h' rfl ?_ (fun _ _ _ _ _ _ _ h => (nomatch h)) ?_ ?_ ?_
        · intro t g' id' ht hg' hid'
          refine q4 id' (fun he => ?_)
          subst he
          exact ht (hR.own t s g' g id' hg' hg1 hid' q0)
        · intro id' b hb
          have hne : id' ≠ id := by rintro rfl; rw [q3] at hb; cases hb
          rw [q4 id' hne] at hb
          obtain ⟨t, g', h1, h2⟩ := hR.live id' b hb
          refine .inr ⟨t, g', ?_, h1, h2⟩
          rintro rfl
          rw [hg1] at h1; cases h1
          rw [q0] at h2; cases h2; exact hne rfl
        · intro id' hge
          by_cases hne : id' = id
          · rw [hne]; exact q3
          · rw [q4 id' hne]; exact hR.fresh id' (by omega)
        · intro b hb
          rw [q6] at hb
          rcases List.mem_append.1 hb with h | h
          · exact hR.clean b h
          · rw [List.mem_singleton.1 h]; exact q5
  | set s x y z cells =>
    obtain ⟨ag, has, hx, hy, hz⟩ := hpre
    obtain ⟨g, hg1, hg2⟩ := hR.grid has
    let new : Nat → Cell V := fun j => (cells[j]?).getD (ag.cells 0 0 0)
    have hnew : ∀ j, j < cells.length → cells[j]? = some (new j) := by
      intro j hj
      show _ = some ((cells[j]?).getD _)
      rw [List.getElem?_eq_getElem hj]; rfl
    obtain ⟨id, b', k1, k2, k3⟩ := hg2.setFunctor hL (stride := 1) (cells := cells) (new := new)
      (fun j hj => by rw [Nat.mul_one]; exact hnew j hj) hx hy hz
    refine ⟨⟨w.h.set id b', w.g⟩, .unit, _, ?_, .set a s x y z cells new ag has hnew, hR.setBlock hg1 k1 k3⟩
    simp only [World.step, World.withG, hg1, Grid.set, k2, World.ofH]
  | broadcast s x y z cell n =>
    obtain ⟨ag, has, hx, hy, hz⟩ := hpre
    obtain ⟨g, hg1, hg2⟩ := hR.grid has
    obtain ⟨id, b', k1, k2, k3⟩ := hg2.setFunctor hL (stride := 0) (cells := [cell]) (new := fun _ => cell)
      (fun j hj => by simp) hx hy hz
    refine ⟨⟨w.h.set id b', w.g⟩, .unit, _, ?_, .broadcast a s x y z cell n ag has, hR.setBlock hg1 k1 k3⟩
    simp only [World.step, World.withG, hg1, Grid.broadcast, k2, World.ofH]
  | get s x y z target =>
    obtain ⟨ag, has, hx, hy, hz⟩ := hpre
    obtain ⟨g, hg1, hg2⟩ := hR.grid has
    obtain ⟨out, k1, k2, k3⟩ := hg2.get hL target hx hy hz
    refine ⟨w, .cells out, a, ?_, .get a s x y z target out ag has k2 k3, hR⟩
    simp only [World.step, World.withG, hg1, k1, World.ofH]
  | load s ss src n =>
    obtain ⟨ag, has, hin, hn, rows, hlen, hp⟩ := hpre
    obtain ⟨g, hg1, hg2⟩ := hR.grid has
    obtain ⟨id, b', k1, k2, k3⟩ := hg2.load hL hin hlen hn hp
    refine ⟨⟨w.h.set id b', w.g⟩, .unit, _, ?_, .load a s ss src n ag rows has hlen hp, hR.setBlock hg1 k1 k3⟩
    simp only [World.step, World.withG, hg1, k2, World.ofH]
  | save s ss tgt n =>
    obtain ⟨ag, has, hin, hn, hp⟩ := hpre
    obtain ⟨g, hg1, hg2⟩ := hR.grid has
    obtain ⟨out, k1, k2, k3, k4⟩ := hg2.save hL hin hn hp
    refine ⟨w, .raw out, a, ?_, .save a s ss tgt out n ag has k2 k3 k4, hR⟩
    simp only [World.step, World.withG, hg1, k1, World.ofH]
  | poke s x y z X Y Z r k v =>
    obtain ⟨ag, m, has, hm, hk, hx, hx', hy, hy', hz, hz'⟩ := hpre
    obtain ⟨g, hg1, hg2⟩ := hR.grid has
    have ex : x + X = ((x + X).toNat : Int) := by omega
    have ey : y + Y = ((y + Y).toNat : Int) := by omega
    have ez : z + Z = ((z + Z).toNat : Int) := by omega
    obtain ⟨id, b', k1, k2, k3⟩ := hg2.poke hL v hm hk ex ey ez (by omega) (by omega) (by omega)
    refine ⟨⟨w.h.set id b', w.g⟩, .unit, _, ?_, .poke a s x y z X Y Z r k v ag _ _ _ has ex ey ez, hR.setBlock hg1 k1 k3⟩
    simp only [World.step, World.withG, hg1, k2, World.ofH]
  | peek s x y z X Y Z r k =>
    obtain ⟨ag, m, has, hm, hk, hx, hx', hy, hy', hz, hz'⟩ := hpre
    obtain ⟨g, hg1, hg2⟩ := hR.grid has
    have ex : x + X = ((x + X).toNat : Int) := by omega
    have ey : y + Y = ((y + Y).toNat : Int) := by omega
    have ez : z + Z = ((z + Z).toNat : Int) := by omega
    have k1 := hg2.peek hL hm hk ex ey ez (by omega) (by omega) (by omega)
    refine ⟨w, _, a, ?_, .peek a s x y z X Y Z r k ag _ _ _ has ex ey ez, hR⟩
    simp only [World.step, World.withG, hg1, k1, World.ofH]
  | dims s =>
    cases has : a s with
    | absent => exact absurd has hpre
    | blank =>
      obtain ⟨g, hg1, hg2, hg3⟩ := hR.blank has
      refine ⟨w, _, a, ?_, .dimsBlank a s has, hR⟩
      simp only [World.step, World.withG, hg1, hg2]
    | grid ag =>
      obtain ⟨g, hg1, hg2⟩ := hR.grid has
      refine ⟨w, _, a, ?_, .dims a s ag has, hR⟩
      simp only [World.step, World.withG, hg1, hg2.1]
  | extents s =>
    obtain ⟨ag, e, has, he⟩ := hpre
    obtain ⟨g, hg1, hg2⟩ := hR.grid has
    obtain ⟨_, e', _, _, _, _, _, _, _, _, h8⟩ := hg2
    obtain ⟨rfl, p1, p2, p3⟩ := h8 e he
    refine ⟨w, _, a, ?_, .extents a s ag e has he, hR⟩
    simp only [World.step, World.withG, hg1, p1, p2, p3]
  | byteSize s =>
    obtain ⟨ag, has⟩ := hpre
    obtain ⟨g, hg1, hg2⟩ := hR.grid has
    obtain ⟨_, e, _, _, h2, _, _, _, h6, _⟩ := hg2
    refine ⟨w, _, a, ?_, .byteSize a s ag e has h2, hR⟩
    simp only [World.step, World.withG, hg1, h6, byteSizeOf_eq, structBytes_eq, Ext.prod]

/-- The initial state. -/
theorem R.init : R C (World.init : World V) (fun _ => .absent) :=
  ⟨fun _ => rfl, fun _ _ _ _ _ h => (nomatch h), fun _ _ h => (nomatch h), fun _ _ => rfl, fun _ h => (nomatch h)⟩

end
end LFA
