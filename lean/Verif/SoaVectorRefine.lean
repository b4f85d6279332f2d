import Verif.SoaVectorProof

/-
  Refinement for programs with several vectors.
-/
set_option linter.unusedSectionVars false
set_option linter.unusedVariables false
namespace LFA

section
variable {V : Type} [DecidableEq V] {C : Cfg V}
open World (upd)

/-- A vector variable and its specification. -/
def VSlotOK (C : Cfg V) (h : Heap V) (vo : Option SVec) : Option (AVec V) → Prop
  | none => vo = none
  | some a => ∃ g, vo = some ⟨g, a.n⟩ ∧ VecOK C h g a

/-- The program state represents the vectors `σ`; the heap contains exactly their buffers, each vector has its own, and no
    freed buffer contains a live object. -/
structure VR (C : Cfg V) (w : VecWorld V) (σ : VecSpec.State V) : Prop where
  slots : ∀ s, VSlotOK C w.h (w.v s) (σ s)
  own : ∀ s s' v v' id, w.v s = some v → w.v s' = some v' → v.g.data = some id → v'.g.data = some id → s = s'
  live : ∀ id b, w.h.blk id = some b → ∃ s v, w.v s = some v ∧ v.g.data = some id
  fresh : ∀ id, w.h.next ≤ id → w.h.blk id = none
  clean : ∀ b ∈ w.h.freed, Clean b

theorem VR.init : VR C (VecWorld.init : VecWorld V) VecSpec.start := by
  refine ⟨fun s => rfl, ?_, ?_, fun _ _ => rfl, ?_⟩
  · intro s s' v v' id h; cases h
  · intro id b h; cases h
  · intro b h; cases h

theorem VR.vec {w : VecWorld V} {σ : VecSpec.State V} (hR : VR C w σ) {s : Nat} {a : AVec V} (hs : σ s = some a) :
    ∃ g, w.v s = some ⟨g, a.n⟩ ∧ VecOK C w.h g a := by
  have := hR.slots s; rw [hs] at this; exact this

theorem VR.absent {w : VecWorld V} {σ : VecSpec.State V} (hR : VR C w σ) {s : Nat} (hs : σ s = none) : w.v s = none := by
  have := hR.slots s; rw [hs] at this; exact this

theorem VR.present {w : VecWorld V} {σ : VecSpec.State V} (hR : VR C w σ) {s : Nat} {v : SVec} (hv : w.v s = some v) :
    ∃ a, σ s = some a ∧ v.n = a.n ∧ VecOK C w.h v.g a := by
  cases hs : σ s with
  | none => rw [hR.absent hs] at hv; cases hv
  | some a =>
    obtain ⟨g, h1, h2⟩ := hR.vec hs
    rw [h1] at hv; cases hv
    exact ⟨a, rfl, rfl, h2⟩

theorem VSlotOK.frame {h h' : Heap V} {vo : Option SVec} {as : Option (AVec V)} (hs : VSlotOK C h vo as)
    (hf : ∀ v id, vo = some v → v.g.data = some id → h'.blk id = h.blk id) : VSlotOK C h' vo as := by
  cases as with
  | none => exact hs
  | some a =>
    obtain ⟨g, h1, h2⟩ := hs
    exact ⟨g, h1, h2.frame (fun id hid => hf _ id h1 hid)⟩

theorem VR.data_lt {w : VecWorld V} {σ : VecSpec.State V} (hR : VR C w σ) {s : Nat} {v : SVec} {id : Nat}
    (hv : w.v s = some v) (hid : v.g.data = some id) : id < w.h.next := by
  obtain ⟨a, _, _, h2⟩ := hR.present hv
  obtain ⟨id', b, q1, q2, _⟩ := h2.buf
  rw [q1] at hid; cases hid
  by_contra hge
  rw [hR.fresh _ (by omega)] at q2; cases q2

/-- Change of one variable. -/
theorem VR.slot {w : VecWorld V} {σ : VecSpec.State V} (hR : VR C w σ) (s : Nat) (vo : Option SVec) (as : Option (AVec V))
    (h' : Heap V) (hslot : VSlotOK C h' vo as)
    (hkeep : ∀ t v id, t ≠ s → w.v t = some v → v.g.data = some id → h'.blk id = w.h.blk id)
    (hown : ∀ t v id v', t ≠ s → w.v t = some v → v.g.data = some id → vo = some v' → v'.g.data ≠ some id)
    (hlive : ∀ id b, h'.blk id = some b → (∃ v', vo = some v' ∧ v'.g.data = some id) ∨
      ∃ t v, t ≠ s ∧ w.v t = some v ∧ v.g.data = some id)
    (hfresh : ∀ id, h'.next ≤ id → h'.blk id = none)
    (hclean : ∀ b ∈ h'.freed, Clean b) : VR C ⟨h', upd w.v s vo⟩ (upd σ s as) := by
  refine ⟨?_, ?_, ?_, hfresh, hclean⟩
  · intro t
    by_cases ht : t = s
    · subst ht; simp only [upd_self]; exact hslot
    · simp only [upd_ne _ _ ht]
      exact (hR.slots t).frame (fun v id hv hid => hkeep t v id ht hv hid)
  · intro t t' g g' id hg hg' hid hid'
    by_cases ht : t = s
    · by_cases ht' : t' = s
      · rw [ht, ht']
      · subst ht
        simp only [upd_self] at hg
        simp only [upd_ne _ _ ht'] at hg'
        exact absurd hid (hown t' g' id g ht' hg' hid' hg)
    · simp only [upd_ne _ _ ht] at hg
      by_cases ht' : t' = s
      · subst ht'
        simp only [upd_self] at hg'
        exact absurd hid' (hown t g id g' ht hg hid hg')
      · simp only [upd_ne _ _ ht'] at hg'
        exact hR.own t t' g g' id hg hg' hid hid'
  · intro id b hb
    rcases hlive id b hb with ⟨g', h1, h2⟩ | ⟨t, g, ht, h1, h2⟩
    · exact ⟨s, g', by simp only [upd_self]; exact h1, h2⟩
    · exact ⟨t, g, by simp only [upd_ne _ _ ht]; exact h1, h2⟩

/-- Only the buffer of `s` was modified (or not even that). -/
theorem VR.setBlock {w : VecWorld V} {σ : VecSpec.State V} (hR : VR C w σ) {s : Nat} {v : SVec} {id : Nat}
    (hv : w.v s = some v) (hid : v.g.data = some id) {h' : Heap V} (hh : h' = w.h ∨ ∃ b', h' = w.h.set id b') {a : AVec V}
    (hok : VecOK C h' v.g a) : VR C ⟨h', upd w.v s (some ⟨v.g, a.n⟩)⟩ (upd σ s (some a)) := by
  have hne : ∀ i, i ≠ id → h'.blk i = w.h.blk i := by
    intro i hi
    rcases hh with rfl | ⟨b', rfl⟩
    · rfl
    · exact Heap.blk_set_ne _ _ hi
  have hnx : h'.next = w.h.next := by
    rcases hh with rfl | ⟨b', rfl⟩ <;> rfl
  have hfr : h'.freed = w.h.freed := by
    rcases hh with rfl | ⟨b', rfl⟩ <;> rfl
  refine hR.slot s _ (some a) h' ⟨v.g, rfl, hok⟩ ?_ ?_ ?_ ?_ (by rw [hfr]; exact hR.clean)
  · intro t g' id' ht hg' hid'
    apply hne
    rintro rfl
    exact ht (hR.own t s g' v _ hg' hv hid' hid)
  · intro t g' id' g'' ht hg' hid' he hid''
    cases he
    exact ht (hR.own t s g' v id' hg' hv hid' hid'')
  · intro id' b hb
    by_cases he : id' = id
    · subst he; exact .inl ⟨_, rfl, hid⟩
    · rw [hne _ he] at hb
      obtain ⟨t, g', h1, h2⟩ := hR.live id' b hb
      refine .inr ⟨t, g', ?_, h1, h2⟩
      rintro rfl
      rw [hv] at h1; cases h1
      rw [hid] at h2; cases h2; exact he rfl
  · intro id' hge
    have := hR.data_lt hv hid
    rw [hnx] at hge
    rw [hne _ (by omega)]; exact hR.fresh id' hge

/-- `s` now has a new buffer (its old one is gone, if there was any). -/
theorem VR.swapped {w : VecWorld V} {σ : VecSpec.State V} (hR : VR C w σ) {s : Nat} {old : Option Nat}
    (hold : ∀ id, old = some id → ∃ v, w.v s = some v ∧ v.g.data = some id)
    (hold' : ∀ v id, w.v s = some v → v.g.data = some id → old = some id)
    {g' : Grid} {h' : Heap V} {new : Nat} (hid : g'.data = some new)
    (hr : Swapped w.h h' old new) {a : AVec V} (hok : VecOK C h' g' a) :
    VR C ⟨h', upd w.v s (some ⟨g', a.n⟩)⟩ (upd σ s (some a)) := by
  refine hR.slot s (some ⟨g', a.n⟩) (some a) h' ⟨g', rfl, hok⟩ ?_ ?_ ?_ ?_ (hr.clean hR.clean)
  · intro t g id ht hg hid'
    have hlt := hR.data_lt hg hid'
    refine hr.kept id (fun ho => ?_) hlt
    obtain ⟨g0, h1, h2⟩ := hold id ho
    exact ht (hR.own t s g g0 id hg h1 hid' h2)
  · intro t g id g'' ht hg hid' he hid''
    cases he
    have hlt := hR.data_lt hg hid'
    have hlo := hr.lo
    have hid2 : g'.data = some id := hid''
    rw [hid] at hid2; cases hid2; omega
  · intro id b hb
    by_cases hn : id = new
    · subst hn; exact .inl ⟨_, rfl, hid⟩
    · by_cases ho : old = some id
      · rw [hr.gone id ho] at hb; cases hb
      · by_cases hlt : id < w.h.next
        · rw [hr.kept id ho hlt] at hb
          obtain ⟨t, g, h1, h2⟩ := hR.live id b hb
          refine .inr ⟨t, g, ?_, h1, h2⟩
          rintro rfl
          exact ho (hold' g id h1 h2)
        · rw [hr.rest id (by omega) hn] at hb; cases hb
  · intro id hge
    have h1 := hr.hi
    have h2 := hr.lo
    exact hr.rest id (by omega) (by omega)

theorem VR.next_old {w : VecWorld V} {σ : VecSpec.State V} (hR : VR C w σ) {s : Nat} {v : SVec}
    (hv : w.v s = some v) : ∀ i, v.g.data = some i → i < w.h.next := fun _ h => hR.data_lt hv h

/-- Outcome of `reserve` in terms of the specification. -/
theorem reserve_refines (hL : C.L.WF) (h1 : OneD C.tr) (dv : V) {h : Heap V} {g : Grid} {a a' : AVec V} {out : ArrOut V}
    (hg : VecOK C h g a) (hf : ∀ i, h.next ≤ i → h.blk i = none) {m : Nat}
    (hs : VecSpec.reserve C dv a m = some (a', out)) :
    (∃ e, out = .threw e ∧ a' = a ∧ SVec.reserve C ⟨g, a.n⟩ m h = .throw e (⟨g, a.n⟩, h)) ∨
    (out = .unit ∧ a'.n = a.n ∧ a'.known = true ∧ ∃ g' h' new, SVec.reserve C ⟨g, a.n⟩ m h = .ok () (⟨g', a.n⟩, h') ∧ g'.data = some new ∧
      Swapped h h' g.data new ∧ VecOK C h' g' a') := by
  unfold VecSpec.reserve at hs
  cases hsel : selectSizes C.tr ⟨m, 1, 1⟩ with
  | error e =>
    rw [hsel] at hs
    cases hs
    exact .inl ⟨e, rfl, rfl, reserve_throw hsel⟩
  | ok e =>
    rw [hsel] at hs
    simp only at hs
    split at hs
    · rename_i hc
      obtain ⟨hk, hn, hn', hl⟩ := hc
      cases hs
      obtain ⟨g', h', new, k1, k2, k3, k4⟩ := hg.reserve hL h1 dv hf hsel hk hn hn' hl
      exact .inr ⟨rfl, rfl, rfl, g', h', new, k1, k2, k3, k4⟩
    · cases hs

theorem onVec_some {σ σ' : VecSpec.State V} {s : Nat} {f : AVec V → Option (AVec V × ArrOut V)} {out : ArrOut V}
    (h : VecSpec.onVec σ s f = some (σ', out)) :
    ∃ a a', σ s = some a ∧ f a = some (a', out) ∧ σ' = upd σ s (some a') := by
  unfold VecSpec.onVec at h
  cases hs : σ s with
  | none => rw [hs] at h; cases h
  | some a =>
    rw [hs] at h
    simp only at h
    cases hf : f a with
    | none => rw [hf] at h; cases h
    | some p => rw [hf] at h; cases h; exact ⟨a, p.1, rfl, hf, rfl⟩

/-- A new grid with `n` cells. -/
theorem new_vec (hL : C.L.WF) (h1 : OneD C.tr) (dv : V) {h : Heap V} (hf : ∀ i, h.next ≤ i → h.blk i = none) {n : Nat} {e : Ext}
    (hs : selectSizes C.tr ⟨n, 1, 1⟩ = .ok e) :
    ∃ g h', Grid.new C ⟨n, 1, 1⟩ h = .ok () (g, h') ∧ g.data = some h.next ∧ Swapped h h' none h.next ∧
      VecOK C h' g (VecSpec.fill n e.x (dfltCell C.L dv)) := by
  obtain ⟨g', h', k1, k2, k3, k4⟩ := resize_blank (C := C) (h := h)
    (g := ⟨⟨0, 0, 0⟩, none, none, none, none, none⟩) hL rfl (d := ⟨n, 1, 1⟩) (by simp) hs dv
  obtain ⟨hy, hz⟩ := h1 n e hs
  have he : e = ⟨e.x, 1, 1⟩ := by cases e; simp_all
  exact ⟨g', h', k1, k3, Swapped.ofRealloc k4 (fun i hi => (nomatch hi)) hf, VecOK.ofGrid (n := n) k2 (by rw [hs]; rw [← he])⟩

theorem new_throw {n : Nat} {h : Heap V} {e : Exc} (hs : selectSizes C.tr ⟨n, 1, 1⟩ = .error e) :
    Grid.new C ⟨n, 1, 1⟩ h = .throw e (⟨⟨n, 1, 1⟩, none, none, none, none, none⟩, h) := by
  simp [Grid.new, Grid.resize, Grid.destroyAndDeallocate, Res.withGrid, Res.bind, hs]

theorem create_refines (hL : C.L.WF) (h1 : OneD C.tr) (dv : V) {w : VecWorld V} {σ σ' : VecSpec.State V} (hR : VR C w σ)
    {s n : Nat} {c : Cell V} {out : ArrOut V} (hs : VecSpec.create C σ s n c = some (σ', out)) :
    w.v s = none ∧
    (∃ w', w.ofCtor s (SVec.newFill C n c w.h) = .ok (w', out) ∧ VR C w' σ') ∧
    (c = dfltCell C.L dv → ∃ w', w.ofCtor s (SVec.new C n w.h) = .ok (w', out) ∧ VR C w' σ') := by
  unfold VecSpec.create at hs
  cases hσ : σ s with
  | some a => rw [hσ] at hs; cases hs
  | none =>
    have hn := hR.absent hσ
    refine ⟨hn, ?_⟩
    rw [hσ] at hs
    simp only at hs
    cases hsel : selectSizes C.tr ⟨n, 1, 1⟩ with
    | error e =>
      rw [hsel] at hs
      cases hs
      have hw : (⟨w.h, w.v⟩ : VecWorld V) = w := rfl
      exact ⟨⟨w, by simp only [SVec.newFill, new_throw hsel, VecWorld.ofCtor], hR⟩,
        fun _ => ⟨w, by simp only [SVec.new, new_throw hsel, VecWorld.ofCtor], hR⟩⟩
    | ok e =>
      rw [hsel] at hs
      cases hs
      obtain ⟨g, h', k1, k2, k3, k4⟩ := new_vec hL h1 dv hR.fresh hsel
      have hd := selectSizes_fits hsel
      obtain ⟨id, b', j1, j2, j3⟩ := k4.setRow hL (stride := 0) (cells := [c]) (x := 0) (n := n) (new := fun _ => c)
        (fun j _ => by simp) (fun j hj => ⟨by simpa [VecSpec.fill] using Nat.lt_of_lt_of_le hj hd.1, .inr (by simp [VecSpec.fill, hj])⟩)
        (by simpa [VecSpec.fill] using hd.1)
      rw [k2] at j1; cases j1
      have hfill : ({ (VecSpec.fill n e.x (dfltCell C.L dv) : AVec V) with
          cells := putRow (VecSpec.fill n e.x (dfltCell C.L dv)).cells 0 n fun _ => c } : AVec V) = VecSpec.fill n e.x c := by
        have : (putRow (VecSpec.fill n e.x (dfltCell C.L dv)).cells 0 n fun _ => c) = (VecSpec.fill n e.x c).cells := by
          funext i
          unfold putRow VecSpec.fill
          by_cases hi : i < n <;> simp [hi]
        rw [this]; rfl
      rw [hfill] at j3
      refine ⟨⟨⟨h'.set w.h.next b', upd w.v s (some ⟨g, n⟩)⟩, ?_, ?_⟩, fun hc => ⟨⟨h', upd w.v s (some ⟨g, n⟩)⟩, ?_, ?_⟩⟩
      · simp only [SVec.newFill, k1, Grid.broadcast, j2, VecWorld.ofCtor]
      · exact hR.swapped (a := VecSpec.fill n e.x c) (fun id h => by cases h) (fun v id h1 h2 => by rw [hn] at h1; cases h1) k2
          (k3.set (fun i hi => (nomatch hi)) b') j3
      · simp only [SVec.new, k1, VecWorld.ofCtor]
      · subst hc
        exact hR.swapped (a := VecSpec.fill n e.x (dfltCell C.L dv)) (fun id h => by cases h)
          (fun v id h1 h2 => by rw [hn] at h1; cases h1) k2 k3 k4

theorem vec_new_refines (hL : C.L.WF) (h1 : OneD C.tr) (dv : V) {w : VecWorld V} {σ σ' : VecSpec.State V} (hR : VR C w σ)
    (s : Nat) (n : Nat) {out : ArrOut V} (hs : VecSpec.step C dv σ (.new s n) = some (σ', out)) :
    ∃ w', w.step C (.new s n) = .ok (w', out) ∧ VR C w' σ' := by
  obtain ⟨hn, _, h⟩ := create_refines hL h1 dv hR (s := s) (n := n) (c := dfltCell C.L dv) hs
  obtain ⟨w', k1, k2⟩ := h rfl
  exact ⟨w', by simp only [VecWorld.step, hn]; exact k1, k2⟩

theorem vec_newFill_refines (hL : C.L.WF) (h1 : OneD C.tr) (dv : V) {w : VecWorld V} {σ σ' : VecSpec.State V} (hR : VR C w σ)
    (s : Nat) (n : Nat) (c : Cell V) {out : ArrOut V} (hs : VecSpec.step C dv σ (.newFill s n c) = some (σ', out)) :
    ∃ w', w.step C (.newFill s n c) = .ok (w', out) ∧ VR C w' σ' := by
  obtain ⟨hn, ⟨w', k1, k2⟩, _⟩ := create_refines hL h1 dv hR (s := s) (n := n) (c := c) hs
  exact ⟨w', by simp only [VecWorld.step, hn]; exact k1, k2⟩

theorem vec_copy_refines (hL : C.L.WF) (h1 : OneD C.tr) (dv : V) {w : VecWorld V} {σ σ' : VecSpec.State V} (hR : VR C w σ)
    (s : Nat) (t : Nat) {out : ArrOut V} (hs : VecSpec.step C dv σ (.copy s t) = some (σ', out)) :
    ∃ w', w.step C (.copy s t) = .ok (w', out) ∧ VR C w' σ' := by
  simp only [VecSpec.step] at hs
  cases hσs : σ s with
  | some _ => rw [hσs] at hs; cases hs
  | none =>
  cases hσt : σ t with
  | none => rw [hσs, hσt] at hs; cases hs
  | some o =>
  rw [hσs, hσt] at hs
  cases hs
  have hn := hR.absent hσs
  obtain ⟨og, ho1, ho2⟩ := hR.vec hσt
  obtain ⟨id, b, q1, q2, _⟩ := ho2.buf
  have hid_lt := hR.data_lt ho1 q1
  let g : Grid := ⟨og.dim, none, none, none, some (byteSizeOf C.L ⟨o.ext, 1, 1⟩), some w.h.next⟩
  obtain ⟨b1, k1, k2⟩ := grid_init (h := w.h) hL ho2.sel dv g ho2.dim rfl rfl none (fun _ h => by cases h)
  have r1 : Realloc w.h ((w.h.alloc (byteSizeOf C.L ⟨o.ext, 1, 1⟩)).2.set w.h.next b1) none := by
    refine ⟨rfl, fun i hi => (nomatch hi), fun i _ hi => ?_, fun h => h⟩
    rw [Heap.blk_set_ne _ _ hi]; simp [Heap.alloc, hi]
  have sw := Swapped.ofRealloc r1 (fun i hi => (nomatch hi)) hR.fresh
  have ho3 := ho2.frame (h' := (w.h.alloc (byteSizeOf C.L ⟨o.ext, 1, 1⟩)).2.set w.h.next b1)
    (fun i hi => r1.kept i (fun h => nomatch h) (by rw [q1] at hi; cases hi; omega))
  have v1 := VecOK.ofGrid (n := o.n) k2 ho2.sel
  obtain ⟨id2, b2, j1, j2, j3⟩ := v1.copyIn hL ho3 rfl (fun h => by
    have : og.data = some w.h.next := h.symm
    rw [q1] at this; cases this; omega)
  have : id2 = w.h.next := by
    have : some w.h.next = some id2 := j1
    cases this; rfl
  subst this
  refine ⟨⟨((w.h.alloc (byteSizeOf C.L ⟨o.ext, 1, 1⟩)).2.set w.h.next b1).set w.h.next b2, upd w.v s (some ⟨g, o.n⟩)⟩, ?_, ?_⟩
  · simp only [VecWorld.step, hn, VecWorld.withV, ho1, SVec.copyCtor, Grid.copyCtor, ho2.bs]
    have e1 : (w.h.alloc (byteSizeOf C.L ⟨o.ext, 1, 1⟩)).1 = w.h.next := rfl
    simp only [e1]
    have k1' : (⟨og.dim, none, none, none, some (byteSizeOf C.L ⟨o.ext, 1, 1⟩), some w.h.next⟩ : Grid).init C
        (w.h.alloc (byteSizeOf C.L ⟨o.ext, 1, 1⟩)).2 = _ := k1
    rw [k1']
    simp only [Res.withGrid, Res.bind]
    rw [j2]
    rfl
  · refine hR.swapped (a := { o with known := false, cells := fun i => if i < o.dim then o.cells i else none })
      (fun id h => by cases h) (fun v id h1 h2 => by rw [hn] at h1; cases h1) rfl
      (sw.set (fun i hi => (nomatch hi)) b2) ?_
    refine cast ?_ j3
    congr 2
    funext i
    by_cases hi : i < o.dim <;> simp [hi]

theorem vec_assign_refines (hL : C.L.WF) (h1 : OneD C.tr) (dv : V) {w : VecWorld V} {σ σ' : VecSpec.State V} (hR : VR C w σ)
    (s : Nat) (t : Nat) {out : ArrOut V} (hs : VecSpec.step C dv σ (.assign s t) = some (σ', out)) :
    ∃ w', w.step C (.assign s t) = .ok (w', out) ∧ VR C w' σ' := by
  simp only [VecSpec.step] at hs
  cases hσs : σ s with
  | none => rw [hσs] at hs; cases hs
  | some a =>
  cases hσt : σ t with
  | none => rw [hσs, hσt] at hs; cases hs
  | some o =>
  rw [hσs, hσt] at hs
  cases hs
  obtain ⟨g, hg1, hg2⟩ := hR.vec hσs
  obtain ⟨og, ho1, ho2⟩ := hR.vec hσt
  by_cases hdim : a.dim = o.dim
  · obtain ⟨id2, b2, j1, j2, j3⟩ := hg2.copyIn hL ho2 hdim (fun h => by
      obtain ⟨id, b, q1, _⟩ := hg2.buf
      have hst : s = t := hR.own s t _ _ id hg1 ho1 q1 (by rw [← h]; exact q1)
      subst hst
      rw [hσs] at hσt; cases hσt; rfl)
    refine ⟨⟨w.h.set id2 b2, upd w.v s (some ⟨g, o.n⟩)⟩, ?_, ?_⟩
    · have hsame := resize_same (C := C) (h := w.h) (g := g) (d := og.dim) (by rw [hg2.dim, ho2.dim, hdim])
      simp only [VecWorld.step, VecWorld.withV, hg1, ho1, SVec.assign, Grid.assign, hsame, Res.bind, j2, VecWorld.ofVS]
    · rw [if_pos hdim]
      exact hR.setBlock (v := ⟨g, a.n⟩) hg1 j1 (.inr ⟨b2, rfl⟩) (j3.withN o.n)
  · have hst : s ≠ t := by rintro rfl; rw [hσs] at hσt; cases hσt; exact hdim rfl
    obtain ⟨id, h0, d1, d2, d3, d4, d5, bc, d6, d7⟩ := hg2.destroy hL
    obtain ⟨ido, bo, q1, q2, _⟩ := ho2.buf
    have hido := hR.data_lt ho1 q1
    have hidg := hR.data_lt hg1 d1
    have hne : ido ≠ id := by
      rintro rfl
      exact hst (hR.own s t _ _ _ hg1 ho1 d1 q1)
    let g2 : Grid := { g with dim := og.dim, ex := some o.ext, ey := some 1, ez := some 1,
                              bs := some (byteSizeOf C.L ⟨o.ext, 1, 1⟩), data := some h0.next }
    obtain ⟨b1, k1, k2⟩ := grid_init (h := h0) hL ho2.sel dv g2 ho2.dim rfl rfl (some ⟨o.ext, 1, 1⟩)
      (fun e' he => by cases he; exact ⟨rfl, rfl, rfl, rfl⟩)
    have v1 := VecOK.ofGrid (n := o.n) k2 ho2.sel
    have ho3 : VecOK C ((h0.alloc (byteSizeOf C.L ⟨o.ext, 1, 1⟩)).2.set h0.next b1) og o := by
      refine ho2.frame (fun i hi => ?_)
      rw [q1] at hi; cases hi
      rw [Heap.blk_set_ne _ _ (by omega)]
      simp only [Heap.alloc]
      rw [if_neg (by omega)]
      exact d5 _ hne
    obtain ⟨id2, b2, j1, j2, j3⟩ := v1.copyIn hL ho3 rfl (fun h => by
      have : og.data = some h0.next := h.symm
      rw [q1] at this; cases this; omega)
    have : id2 = h0.next := by
      have : some h0.next = some id2 := j1
      cases this; rfl
    subst this
    have hne' : ¬ (g.dim.x = og.dim.x ∧ g.dim.y = og.dim.y ∧ g.dim.z = og.dim.z) := by
      rw [hg2.dim, ho2.dim]; intro h; exact hdim h.1
    have hres : g.resize C og.dim w.h =
        .ok () (g2, (h0.alloc (byteSizeOf C.L ⟨o.ext, 1, 1⟩)).2.set h0.next b1) := by
      unfold Grid.resize
      rw [if_neg hne']
      have hsel : selectSizes C.tr og.dim = .ok ⟨o.ext, 1, 1⟩ := by rw [ho2.dim]; exact ho2.sel
      simp only [d2, Res.withGrid, Res.bind, hsel]
      have : (h0.alloc (byteSizeOf C.L ⟨o.ext, 1, 1⟩)).1 = h0.next := rfl
      simp only [this]
      show Res.withGrid g2 (g2.init C _) = _
      rw [k1]; rfl
    refine ⟨⟨((h0.alloc (byteSizeOf C.L ⟨o.ext, 1, 1⟩)).2.set h0.next b1).set h0.next b2, upd w.v s (some ⟨g2, o.n⟩)⟩, ?_, ?_⟩
    · simp only [VecWorld.step, VecWorld.withV, hg1, ho1, SVec.assign, Grid.assign, hres, Res.bind, j2, VecWorld.ofVS]
    · rw [if_neg hdim]
      refine hR.swapped (old := some id) (new := h0.next)
        (a := { o with known := true, cells := fun i => if i < o.dim then o.cells i else none })
        (fun i hi => by cases hi; exact ⟨_, hg1, d1⟩)
        (fun v i hv hi => by
          rw [hg1] at hv; cases hv
          have hi' : g.data = some i := hi
          rw [d1] at hi'; exact hi') (g' := g2) rfl ?_ ?_
      · refine ⟨by omega, by simp only [Heap.set, Heap.alloc]; omega, fun i hi => ?_, fun i hi hi' => ?_, fun i hi hi' => ?_,
          fun hc b3 hb3 => ?_⟩
        · cases hi
          rw [Heap.blk_set_ne _ _ (by omega), Heap.blk_set_ne _ _ (by omega)]
          simp only [Heap.alloc]
          rw [if_neg (by omega)]; exact d4
        · rw [Heap.blk_set_ne _ _ (by omega), Heap.blk_set_ne _ _ (by omega)]
          simp only [Heap.alloc]
          rw [if_neg (by omega)]; exact d5 i (fun h => hi (by rw [h]))
        · rw [Heap.blk_set_ne _ _ hi', Heap.blk_set_ne _ _ hi']
          simp only [Heap.alloc]
          rw [if_neg hi', d5 i (by omega)]; exact hR.fresh i hi
        · have hb4 : b3 ∈ h0.freed := hb3
          rw [d7] at hb4
          rcases List.mem_append.1 hb4 with h | h
          · exact hc b3 h
          · rw [List.mem_singleton.1 h]; exact d6
      · refine cast ?_ j3
        congr 2
        funext i
        by_cases hi : i < o.dim <;> simp [hi]

theorem vec_destroy_refines (hL : C.L.WF) (h1 : OneD C.tr) (dv : V) {w : VecWorld V} {σ σ' : VecSpec.State V} (hR : VR C w σ)
    (s : Nat) {out : ArrOut V} (hs : VecSpec.step C dv σ (.destroy s) = some (σ', out)) :
    ∃ w', w.step C (.destroy s) = .ok (w', out) ∧ VR C w' σ' := by
  simp only [VecSpec.step] at hs
  cases hσs : σ s with
  | none => rw [hσs] at hs; cases hs
  | some a =>
    rw [hσs] at hs
    cases hs
    obtain ⟨g, hg1, hg2⟩ := hR.vec hσs
    obtain ⟨id, h0, d1, d2, d3, d4, d5, bc, d6, d7⟩ := hg2.dtor hL
    refine ⟨⟨h0, upd w.v s none⟩, by simp only [VecWorld.step, VecWorld.withV, hg1, SVec.dtor, d2], ?_⟩
    refine hR.slot s none none h0 rfl ?_ ?_ ?_ ?_ ?_
    · intro t v i ht hv hi
      apply d5
      rintro rfl
      exact ht (hR.own t s v _ _ hv hg1 hi d1)
    · intro t v i v' _ _ _ h; cases h
    · intro i b hb
      by_cases hi : i = id
      · subst hi; rw [d4] at hb; cases hb
      · rw [d5 i hi] at hb
        obtain ⟨t, v, h1, h2⟩ := hR.live i b hb
        refine .inr ⟨t, v, ?_, h1, h2⟩
        rintro rfl
        rw [hg1] at h1; cases h1
        have h2' : g.data = some i := h2
        rw [d1] at h2'; cases h2'; exact hi rfl
    · intro i hi
      rw [d3] at hi
      have := hR.data_lt hg1 d1
      rw [d5 i (by omega)]; exact hR.fresh i hi
    · intro b hb
      rw [d7] at hb
      rcases List.mem_append.1 hb with h | h
      · exact hR.clean b h
      · rw [List.mem_singleton.1 h]; exact d6

theorem vec_set_refines (hL : C.L.WF) (h1 : OneD C.tr) (dv : V) {w : VecWorld V} {σ σ' : VecSpec.State V} (hR : VR C w σ)
    (s : Nat) (i : Nat) (c : Cell V) {out : ArrOut V} (hs : VecSpec.step C dv σ (.set s i c) = some (σ', out)) :
    ∃ w', w.step C (.set s i c) = .ok (w', out) ∧ VR C w' σ' := by
  obtain ⟨a, a', hσs, hf, rfl⟩ := onVec_some hs
  obtain ⟨g, hg1, hg2⟩ := hR.vec hσs
  split at hf
  · rename_i hw
    cases hf
    obtain ⟨id, b', j1, j2, j3⟩ := hg2.set hL c hw
    refine ⟨⟨w.h.set id b', upd w.v s (some ⟨g, a.n⟩)⟩, ?_, hR.setBlock (v := ⟨g, a.n⟩) hg1 j1 (.inr ⟨b', rfl⟩) j3⟩
    simp only [VecWorld.step, VecWorld.withV, hg1, SVec.set, j2, Res.withVec, VecWorld.ofVS]
  · cases hf

theorem vec_get_refines (hL : C.L.WF) (h1 : OneD C.tr) (dv : V) {w : VecWorld V} {σ σ' : VecSpec.State V} (hR : VR C w σ)
    (s : Nat) (i : Nat) (t : Cell V) {out : ArrOut V} (hs : VecSpec.step C dv σ (.get s i t) = some (σ', out)) :
    ∃ w', w.step C (.get s i t) = .ok (w', out) ∧ VR C w' σ' := by
  obtain ⟨a, a', hσs, hf, rfl⟩ := onVec_some hs
  obtain ⟨g, hg1, hg2⟩ := hR.vec hσs
  cases hc : a.cells i with
  | none => rw [hc] at hf; cases hf
  | some c =>
    rw [hc] at hf; cases hf
    refine ⟨w, ?_, by rw [← hσs, upd_id]; exact hR⟩
    simp only [VecWorld.step, VecWorld.withV, hg1, SVec.get, hg2.get hL hc t, Res.withVec, VecWorld.ofVS]
    rw [← hg1, upd_id]

theorem push_full {g : Grid} {n ex : Nat} {h : Heap V} {r : Res (VS V) Unit} (hex : g.ex = some ex) (hn : n = ex) (c : Cell V)
    (hr : SVec.reserve C ⟨g, n⟩ (grow n) h = r) :
    SVec.push C ⟨g, n⟩ c h = r.bind fun _ (v, h) => (v.set C v.n c h).bind fun _ (v, h) => .ok () (⟨v.g, v.n + 1⟩, h) := by
  subst hn hr
  simp only [SVec.push, hex, if_true]

theorem vec_push_refines (hL : C.L.WF) (h1 : OneD C.tr) (dv : V) {w : VecWorld V} {σ σ' : VecSpec.State V} (hR : VR C w σ)
    (s : Nat) (c : Cell V) {out : ArrOut V} (hs : VecSpec.step C dv σ (.push s c) = some (σ', out)) :
    ∃ w', w.step C (.push s c) = .ok (w', out) ∧ VR C w' σ' := by
  obtain ⟨a, a', hσs, hf, rfl⟩ := onVec_some hs
  obtain ⟨g, hg1, hg2⟩ := hR.vec hσs
  unfold VecSpec.push at hf
  by_cases hk : a.known = true
  · rw [if_pos hk] at hf
    have hex := hg2.ex hk
    by_cases hn : a.n = a.ext
    · rw [if_pos hn] at hf
      cases hres : VecSpec.reserve C dv a (grow a.n) with
      | none => rw [hres] at hf; cases hf
      | some p =>
        obtain ⟨a1, o1⟩ := p
        rw [hres] at hf
        rcases reserve_refines hL h1 dv hg2 hR.fresh hres with ⟨e, rfl, rfl, k⟩ | ⟨rfl, hn1, hkn1, g', h', new, k1, k2, k3, k4⟩
        · cases hf
          refine ⟨w, ?_, by rw [← hσs, upd_id]; exact hR⟩
          have hp := push_full hex hn c k
          simp only [VecWorld.step, VecWorld.withV, hg1, hp, Res.bind, VecWorld.ofVS]
          rw [← hg1, upd_id]
        · simp only at hf
          split at hf
          · rename_i hw
            cases hf
            obtain ⟨id, b', j1, j2, j3⟩ := k4.set hL c hw
            rw [k2] at j1; cases j1
            refine ⟨⟨h'.set new b', upd w.v s (some ⟨g', a1.n + 1⟩)⟩, ?_, ?_⟩
            · have hp := push_full hex hn c k1
              rw [hn1] at j2
              simp only [VecWorld.step, VecWorld.withV, hg1, hp, Res.bind, SVec.set, j2, Res.withVec, VecWorld.ofVS, hn1]
            · refine hR.swapped (old := g.data) (new := new)
                (a := { a1 with n := a1.n + 1, cells := VecSpec.put a1.cells a1.n c })
                (fun i hi => ⟨_, hg1, hi⟩) (fun v i hv hi => by rw [hg1] at hv; cases hv; exact hi) k2
                (k3.set (fun i hi => hR.data_lt hg1 hi) b') (j3.withN (a1.n + 1))
          · cases hf
    · rw [if_neg hn] at hf
      simp only at hf
      split at hf
      · rename_i hw
        cases hf
        obtain ⟨id, b', j1, j2, j3⟩ := hg2.set hL c hw
        refine ⟨⟨w.h.set id b', upd w.v s (some ⟨g, a.n + 1⟩)⟩, ?_,
          hR.setBlock (v := ⟨g, a.n⟩) hg1 j1 (.inr ⟨b', rfl⟩) (j3.withN (a.n + 1))⟩
        simp only [VecWorld.step, VecWorld.withV, hg1, SVec.push, hex, hn, if_false, Res.bind, SVec.set, j2, Res.withVec,
          VecWorld.ofVS]
      · cases hf
  · rw [if_neg hk] at hf; cases hf

theorem vec_pop_refines (hL : C.L.WF) (h1 : OneD C.tr) (dv : V) {w : VecWorld V} {σ σ' : VecSpec.State V} (hR : VR C w σ)
    (s : Nat) (td : Cell V) {out : ArrOut V} (hs : VecSpec.step C dv σ (.pop s td) = some (σ', out)) :
    ∃ w', w.step C (.pop s td) = .ok (w', out) ∧ VR C w' σ' := by
  obtain ⟨a, a', hσs, hf, rfl⟩ := onVec_some hs
  obtain ⟨g, hg1, hg2⟩ := hR.vec hσs
  split at hf
  · rename_i hw
    cases hf
    obtain ⟨id, b', j1, j2, j3⟩ := hg2.set hL td hw.2
    have hn0 : a.n ≠ 0 := by omega
    refine ⟨⟨w.h.set id b', upd w.v s (some ⟨g, a.n - 1⟩)⟩, ?_,
      hR.setBlock (v := ⟨g, a.n⟩) hg1 j1 (.inr ⟨b', rfl⟩) (j3.withN (a.n - 1))⟩
    simp only [VecWorld.step, VecWorld.withV, hg1, SVec.pop, if_neg hn0, SVec.set, j2, Res.withVec, VecWorld.ofVS]
  · cases hf

theorem vec_clear_refines (hL : C.L.WF) (h1 : OneD C.tr) (dv : V) {w : VecWorld V} {σ σ' : VecSpec.State V} (hR : VR C w σ)
    (s : Nat) {out : ArrOut V} (hs : VecSpec.step C dv σ (.clear s) = some (σ', out)) :
    ∃ w', w.step C (.clear s) = .ok (w', out) ∧ VR C w' σ' := by
  obtain ⟨a, a', hσs, hf, rfl⟩ := onVec_some hs
  obtain ⟨g, hg1, hg2⟩ := hR.vec hσs
  cases hf
  obtain ⟨id, b, q1, _⟩ := hg2.buf
  refine ⟨⟨w.h, upd w.v s (some ⟨g, 0⟩)⟩, by simp only [VecWorld.step, VecWorld.withV, hg1], ?_⟩
  exact hR.setBlock (v := ⟨g, a.n⟩) hg1 q1 (.inl rfl) (hg2.withN 0)

theorem vec_resize_refines (hL : C.L.WF) (h1 : OneD C.tr) (dv : V) {w : VecWorld V} {σ σ' : VecSpec.State V} (hR : VR C w σ)
    (s : Nat) (m : Nat) {out : ArrOut V} (hs : VecSpec.step C dv σ (.resize s m) = some (σ', out)) :
    ∃ w', w.step C (.resize s m) = .ok (w', out) ∧ VR C w' σ' := by
  obtain ⟨a, a', hσs, hf, rfl⟩ := onVec_some hs
  obtain ⟨g, hg1, hg2⟩ := hR.vec hσs
  unfold VecSpec.resize at hf
  have hgd : g.dim.x = a.dim := by rw [hg2.dim]
  by_cases hm : m > a.dim
  · rw [if_pos hm] at hf
    cases hres : VecSpec.reserve C dv a m with
    | none => rw [hres] at hf; cases hf
    | some p =>
      obtain ⟨a1, o1⟩ := p
      rw [hres] at hf
      rcases reserve_refines hL h1 dv hg2 hR.fresh hres with ⟨e, rfl, rfl, k⟩ | ⟨rfl, hn1, hkn1, g', h', new, k1, k2, k3, k4⟩
      · cases hf
        refine ⟨w, ?_, by rw [← hσs, upd_id]; exact hR⟩
        simp only [VecWorld.step, VecWorld.withV, hg1, SVec.resize, hgd, if_pos hm, k, Res.bind, VecWorld.ofVS]
        rw [← hg1, upd_id]
      · cases hf
        refine ⟨⟨h', upd w.v s (some ⟨g', m⟩)⟩, ?_, ?_⟩
        · simp only [VecWorld.step, VecWorld.withV, hg1, SVec.resize, hgd, if_pos hm, k1, Res.bind, VecWorld.ofVS]
        · exact hR.swapped (old := g.data) (new := new) (a := { a1 with n := m })
            (fun i hi => ⟨_, hg1, hi⟩) (fun v i hv hi => by rw [hg1] at hv; cases hv; exact hi) k2 k3 (k4.withN m)
  · rw [if_neg hm] at hf
    cases hf
    obtain ⟨id, b, q1, _⟩ := hg2.buf
    refine ⟨⟨w.h, upd w.v s (some ⟨g, m⟩)⟩, ?_, hR.setBlock (v := ⟨g, a.n⟩) hg1 q1 (.inl rfl) (hg2.withN m)⟩
    simp only [VecWorld.step, VecWorld.withV, hg1, SVec.resize, hgd, if_neg hm, VecWorld.ofVS]

theorem vec_reserve_refines (hL : C.L.WF) (h1 : OneD C.tr) (dv : V) {w : VecWorld V} {σ σ' : VecSpec.State V} (hR : VR C w σ)
    (s : Nat) (m : Nat) {out : ArrOut V} (hs : VecSpec.step C dv σ (.reserve s m) = some (σ', out)) :
    ∃ w', w.step C (.reserve s m) = .ok (w', out) ∧ VR C w' σ' := by
  obtain ⟨a, a', hσs, hf, rfl⟩ := onVec_some hs
  obtain ⟨g, hg1, hg2⟩ := hR.vec hσs
  rcases reserve_refines hL h1 dv hg2 hR.fresh hf with ⟨e, rfl, rfl, k⟩ | ⟨rfl, hn1, hkn1, g', h', new, k1, k2, k3, k4⟩
  · refine ⟨w, ?_, by rw [← hσs, upd_id]; exact hR⟩
    simp only [VecWorld.step, VecWorld.withV, hg1, k, VecWorld.ofVS]
    rw [← hg1, upd_id]
  · refine ⟨⟨h', upd w.v s (some ⟨g', a.n⟩)⟩, ?_, ?_⟩
    · simp only [VecWorld.step, VecWorld.withV, hg1, k1, VecWorld.ofVS]
    · rw [← hn1]
      exact hR.swapped (old := g.data) (new := new) (a := a')
        (fun i hi => ⟨_, hg1, hi⟩) (fun v i hv hi => by rw [hg1] at hv; cases hv; exact hi) k2 k3 k4

theorem vec_size_refines (hL : C.L.WF) (h1 : OneD C.tr) (dv : V) {w : VecWorld V} {σ σ' : VecSpec.State V} (hR : VR C w σ)
    (s : Nat) {out : ArrOut V} (hs : VecSpec.step C dv σ (.size s) = some (σ', out)) :
    ∃ w', w.step C (.size s) = .ok (w', out) ∧ VR C w' σ' := by
  obtain ⟨a, a', hσs, hf, rfl⟩ := onVec_some hs
  obtain ⟨g, hg1, hg2⟩ := hR.vec hσs
  cases hf
  exact ⟨w, by simp only [VecWorld.step, VecWorld.withV, hg1], by rw [← hσs, upd_id]; exact hR⟩

theorem vec_capacity_refines (hL : C.L.WF) (h1 : OneD C.tr) (dv : V) {w : VecWorld V} {σ σ' : VecSpec.State V} (hR : VR C w σ)
    (s : Nat) {out : ArrOut V} (hs : VecSpec.step C dv σ (.capacity s) = some (σ', out)) :
    ∃ w', w.step C (.capacity s) = .ok (w', out) ∧ VR C w' σ' := by
  obtain ⟨a, a', hσs, hf, rfl⟩ := onVec_some hs
  obtain ⟨g, hg1, hg2⟩ := hR.vec hσs
  cases hf
  exact ⟨w, by simp only [VecWorld.step, VecWorld.withV, hg1, hg2.dim], by rw [← hσs, upd_id]; exact hR⟩

theorem vec_empty_refines (hL : C.L.WF) (h1 : OneD C.tr) (dv : V) {w : VecWorld V} {σ σ' : VecSpec.State V} (hR : VR C w σ)
    (s : Nat) {out : ArrOut V} (hs : VecSpec.step C dv σ (.empty s) = some (σ', out)) :
    ∃ w', w.step C (.empty s) = .ok (w', out) ∧ VR C w' σ' := by
  obtain ⟨a, a', hσs, hf, rfl⟩ := onVec_some hs
  obtain ⟨g, hg1, hg2⟩ := hR.vec hσs
  cases hf
  exact ⟨w, by simp only [VecWorld.step, VecWorld.withV, hg1], by rw [← hσs, upd_id]; exact hR⟩

theorem vec_poke_refines (hL : C.L.WF) (h1 : OneD C.tr) (dv : V) {w : VecWorld V} {σ σ' : VecSpec.State V} (hR : VR C w σ)
    (s : Nat) (x : Int) (X : Int) (r : Nat) (k : Nat) (val : V) {out : ArrOut V} (hs : VecSpec.step C dv σ (.poke s x X r k val) = some (σ', out)) :
    ∃ w', w.step C (.poke s x X r k val) = .ok (w', out) ∧ VR C w' σ' := by
  obtain ⟨a, a', hσs, hf, rfl⟩ := onVec_some hs
  obtain ⟨g, hg1, hg2⟩ := hR.vec hσs
  cases hm : C.L[r]? with
  | none => rw [hm] at hf; cases hf
  | some m =>
    cases hc : a.cells (x + X).toNat with
    | none => rw [hm, hc] at hf; cases hf
    | some c =>
      rw [hm, hc] at hf
      simp only at hf
      split at hf
      · rename_i hw
        cases hf
        obtain ⟨id, b', j1, j2, j3⟩ := hg2.poke (x := x) (X := X) hL val hm hw.2 (p := (x + X).toNat) (by omega) hc
        refine ⟨⟨w.h.set id b', upd w.v s (some ⟨g, a.n⟩)⟩, ?_, hR.setBlock (v := ⟨g, a.n⟩) hg1 j1 (.inr ⟨b', rfl⟩) j3⟩
        simp only [VecWorld.step, VecWorld.withV, hg1, j2, Res.withVec, VecWorld.ofVS]
      · cases hf

theorem vec_peek_refines (hL : C.L.WF) (h1 : OneD C.tr) (dv : V) {w : VecWorld V} {σ σ' : VecSpec.State V} (hR : VR C w σ)
    (s : Nat) (x : Int) (X : Int) (r : Nat) (k : Nat) {out : ArrOut V} (hs : VecSpec.step C dv σ (.peek s x X r k) = some (σ', out)) :
    ∃ w', w.step C (.peek s x X r k) = .ok (w', out) ∧ VR C w' σ' := by
  obtain ⟨a, a', hσs, hf, rfl⟩ := onVec_some hs
  obtain ⟨g, hg1, hg2⟩ := hR.vec hσs
  cases hm : C.L[r]? with
  | none => rw [hm] at hf; cases hf
  | some m =>
    cases hc : a.cells (x + X).toNat with
    | none => rw [hm, hc] at hf; cases hf
    | some c =>
      rw [hm, hc] at hf
      simp only at hf
      split at hf
      · rename_i hw
        cases hf
        have j := hg2.peek hL hm hw.2 (x := x) (X := X) (p := (x + X).toNat) (by omega) hc
        refine ⟨w, ?_, by rw [← hσs, upd_id]; exact hR⟩
        simp only [VecWorld.step, VecWorld.withV, hg1, j, Res.withVec, VecWorld.ofVS]
        rw [← hg1, upd_id]
      · cases hf

/-- Every operation called within its contract is free of undefined behaviour and does what the specification says. -/
theorem vec_step_refines (hL : C.L.WF) (h1 : OneD C.tr) (dv : V) {w : VecWorld V} {σ σ' : VecSpec.State V} (hR : VR C w σ)
    (op : VecOp V) {out : ArrOut V} (hs : VecSpec.step C dv σ op = some (σ', out)) :
    ∃ w', w.step C op = .ok (w', out) ∧ VR C w' σ' := by
  cases op with
  | new s n => exact vec_new_refines hL h1 dv hR s n hs
  | newFill s n c => exact vec_newFill_refines hL h1 dv hR s n c hs
  | copy s t => exact vec_copy_refines hL h1 dv hR s t hs
  | assign s t => exact vec_assign_refines hL h1 dv hR s t hs
  | destroy s => exact vec_destroy_refines hL h1 dv hR s hs
  | set s i c => exact vec_set_refines hL h1 dv hR s i c hs
  | get s i t => exact vec_get_refines hL h1 dv hR s i t hs
  | push s c => exact vec_push_refines hL h1 dv hR s c hs
  | pop s td => exact vec_pop_refines hL h1 dv hR s td hs
  | clear s => exact vec_clear_refines hL h1 dv hR s hs
  | resize s m => exact vec_resize_refines hL h1 dv hR s m hs
  | reserve s m => exact vec_reserve_refines hL h1 dv hR s m hs
  | size s => exact vec_size_refines hL h1 dv hR s hs
  | capacity s => exact vec_capacity_refines hL h1 dv hR s hs
  | empty s => exact vec_empty_refines hL h1 dv hR s hs
  | poke s x X r k val => exact vec_poke_refines hL h1 dv hR s x X r k val hs
  | peek s x X r k => exact vec_peek_refines hL h1 dv hR s x X r k hs

theorem vec_run_refines (hL : C.L.WF) (h1 : OneD C.tr) (dv : V) (ops : List (VecOp V)) :
    ∀ {w : VecWorld V} {σ σ' : VecSpec.State V} {outs : List (ArrOut V)}, VR C w σ →
      VecSpec.run C dv σ ops = some (σ', outs) → ∃ w', w.run C ops = .ok (w', outs) ∧ VR C w' σ' := by
  induction ops with
  | nil => intro w σ σ' outs hR h; cases h; exact ⟨w, rfl, hR⟩
  | cons op ops ih =>
    intro w σ σ' outs hR h
    simp only [VecSpec.run] at h
    cases h2 : VecSpec.step C dv σ op with
    | none => rw [h2] at h; cases h
    | some p =>
      obtain ⟨σ1, o⟩ := p
      rw [h2] at h
      simp only at h
      cases h3 : VecSpec.run C dv σ1 ops with
      | none => rw [h3] at h; cases h
      | some q =>
        obtain ⟨σ2, os⟩ := q
        rw [h3] at h
        cases h
        obtain ⟨w1, k1, k2⟩ := vec_step_refines hL h1 dv hR op h2
        obtain ⟨w2, k3, k4⟩ := ih k2 h3
        exact ⟨w2, by simp only [VecWorld.run, k1, k3], k4⟩

end
end LFA
