import Verif.Demo

/-
  C08–C15: what a user of soa_grid observes. `Valid C dv w`: the program state `w` is reached by any program which respects
  the contracts of all operations. See `Verif.GridSpec` for the vocabulary.
-/
set_option linter.unusedSectionVars false
namespace LFA.Props
open LFA

section
variable {V : Type} [DecidableEq V] {C : Cfg V} {dv : V}

/-- Cell `(x, y, z)` of grid `s` can be read before and after, and is the same. -/
def Unchanged (C : Cfg V) (w w' : World V) (s x y z : Nat) : Prop :=
  ∃ c, CellIs C w s x y z c ∧ CellIs C w' s x y z c

/-- Grid `s` has the same dimensions `d` and the same cells. -/
def GridUnchanged (C : Cfg V) (w w' : World V) (s : Nat) (d : Ext) : Prop :=
  DimsAre C w s d ∧ DimsAre C w' s d ∧ ∀ x y z, InDim d x y z → Unchanged C w w' s x y z

theorem unchanged_of (hL : C.L.WF) {w w' : World V} {a a' : AWorld V} (hR : R C w a) (hR' : R C w' a') {s : Nat}
    {g g' : AGrid V} (hs : a s = .grid g) (hs' : a' s = .grid g') (hd : g'.dim = g.dim) {x y z : Nat}
    (hin : InDim g.dim x y z) (he : g'.cells x y z = g.cells x y z) : Unchanged C w w' s x y z := by
  refine ⟨g.cells x y z, hR.cellIs hL hs hin, ?_⟩
  have := hR'.cellIs hL hs' (x := x) (y := y) (z := z) (by rw [hd]; exact hin)
  rwa [he] at this

theorem dims_of {w : World V} {a : AWorld V} (hR : R C w a) {s : Nat} {g : AGrid V} {d : Ext} (hs : a s = .grid g)
    (hd : g.dim = d) : DimsAre C w s d := by
  subst hd; exact hR.dims hs

theorem CellIs.of_eq {w : World V} {s x y z : Nat} {c c' : Cell V} (he : c = c') (h : CellIs C w s x y z c) :
    CellIs C w s x y z c' := he ▸ h

theorem world_of_ofH {α : Type} {w w' : World V} {f : α → Out V} {r : Res (Heap V) α} {out : Out V}
    (h : w.ofH f r = .ok (w', out)) (hr : ∀ a h, r = .ok a h → h = w.h) (ht : ∀ e h, r = .throw e h → h = w.h) : w' = w := by
  cases r with
  | ok a h' =>
    have := hr a h' rfl; subst this
    simp only [World.ofH] at h
    injection h with h; injection h with h _; exact h.symm
  | throw e h' =>
    have := ht e h' rfl; subst this
    simp only [World.ofH] at h
    injection h with h; injection h with h _; exact h.symm
  | ub u => simp only [World.ofH] at h; cases h

/-- Read-only callbacks do not modify anything. -/
theorem callbackRead_heap {α : Type} {g : Grid} {f : Ext → Block V → Except UB α} {h : Heap V} :
    (∀ a h', g.callbackRead C f h = .ok a h' → h' = h) ∧ (∀ e h', g.callbackRead C f h = .throw e h' → h' = h) := by
  unfold Grid.callbackRead
  constructor
  · intro a h' hh
    split at hh
    · cases hh
    · split at hh
      · split at hh <;> cases hh <;> rfl
      · split at hh
        · cases hh
        · split at hh <;> cases hh <;> rfl
  · intro a h' hh
    split at hh
    · cases hh; rfl
    · split at hh
      · split at hh <;> cases hh
      · split at hh
        · cases hh
        · split at hh <;> cases hh

/-- All in-range cells of all grids can be read at any time. -/
theorem C09_readable (hL : C.L.WF) {w : World V} (hV : Valid C dv w) {s : Nat} {d : Ext} (hd : DimsAre C w s d)
    {x y z : Nat} (hin : InDim d x y z) : ∃ c, CellIs C w s x y z c := by
  obtain ⟨a, hR⟩ := hV.refines hL
  obtain ⟨g, hs, rfl⟩ := hR.of_dims hd (ne_zero_of_inDim hin)
  exact ⟨_, hR.cellIs hL hs hin⟩

example := C09_readable demoL_WF demo_valid demo_dims0 demo_inDim0

/-- What a cell is, is unique up to data which is not registered. -/
theorem C09_unique {w : World V} {s x y z : Nat} {c c' : Cell V} (h : CellIs C w s x y z c) (h' : CellIs C w s x y z c')
    (r : Nat) (m : Member V) (k : Nat) (hm : C.L[r]? = some m) (hk : k < m.elems) : c r k = c' r k := by
  have e1 := h c
  rw [h' c] at e1
  injection e1 with e1
  injection e1 with _ e1
  injection e1 with e1
  injection e1 with e1
  exact (overlay_eq_iff e1 r m k hm hk).symm

example := fun (h : CellIs demoC demoW 0 2 1 0 demoCell) (h' : CellIs demoC demoW 0 2 1 0 demoCell) =>
  C09_unique h h' 1 ⟨⟨4, true⟩, some 3, 0⟩ 2 rfl (by decide)

/-- C09: `get` returns what `set` stored; all other cells of the grid and all other grids keep their contents. -/
theorem C09_set_get (hL : C.L.WF) {w : World V} (hV : Valid C dv w) {s : Nat} {d : Ext} (hd : DimsAre C w s d)
    {x y z : Nat} (hin : InDim d x y z) (c : Cell V) :
    ∃ w', w.step C (.set s x y z [c]) = .ok (w', .unit) ∧ DimsAre C w' s d ∧ CellIs C w' s x y z c ∧
      (∀ x' y' z', InDim d x' y' z' → (x', y', z') ≠ (x, y, z) → Unchanged C w w' s x' y' z') ∧
      (∀ t d', t ≠ s → DimsAre C w t d' → GridUnchanged C w w' t d') := by
  obtain ⟨a, hR⟩ := hV.refines hL
  obtain ⟨g, hs, rfl⟩ := hR.of_dims hd (ne_zero_of_inDim hin)
  obtain ⟨hx, hy, hz⟩ := hin
  obtain ⟨w', out, a', h1, h2, h3⟩ := step_refines hL dv hR (.set s x y z [c]) ⟨g, hs, by simp; omega, hy, hz⟩
  have hfr := fun t (ht : t ≠ s) => post_frame h2 (t := t) (by simpa [Op.names] using ht)
  cases h2 with
  | set _ _ _ _ _ new g' hg' hn =>
    rw [hs] at hg'; cases hg'
    have hnew : new 0 = c := by simpa using (hn 0 (by simp)).symm
    have hs' := upd_self a s (.grid { g with cells := Spec.setRow g.cells x y z [c].length new })
    refine ⟨w', h1, dims_of h3 hs' rfl, ?_, ?_, ?_⟩
    · have := h3.cellIs hL hs' (x := x) (y := y) (z := z) ⟨hx, hy, hz⟩
      simpa [Spec.setRow, hnew] using this
    · intro x' y' z' hin' hne
      refine unchanged_of hL hR h3 hs hs' rfl hin' ?_
      simp only [Spec.setRow, List.length_cons, List.length_nil]
      rw [if_neg]
      rintro ⟨rfl, rfl, h⟩
      exact hne (by congr 1; omega)
    · intro t d' ht hd'
      rcases hR.blankOrGrid_dims hd' with ⟨hb, rfl⟩ | ⟨gt, hgt, rfl⟩
      · have hb' : World.upd a s _ t = _ := (hfr t ht).trans hb
        obtain ⟨q, q1, q2, q3⟩ := h3.blank hb'
        refine ⟨hd', ?_, fun x y z h => absurd h.1 (Nat.not_lt_zero _)⟩
        simp only [DimsAre, World.step, World.withG, q1, q2]
      · have hg' : World.upd a s _ t = _ := (hfr t ht).trans hgt
        exact ⟨hd', h3.dims hg', fun x y z h => unchanged_of hL hR h3 hgt hg' rfl h rfl⟩

example := C09_set_get demoL_WF demo_valid demo_dims0 demo_inDim0 demoCell

/-- C15, independence, and the frame of every operation: grids an operation does not name keep their dimensions and cells. -/
theorem C15_independent (hL : C.L.WF) {w : World V} {op : Op V} (hV : ValidNext C dv w [op]) {t : Nat} {d : Ext}
    (hd : DimsAre C w t d) (ht : t ∉ op.names) :
    ∃ w' out, w.step C op = .ok (w', out) ∧ GridUnchanged C w w' t d := by
  obtain ⟨a, hR, hleg⟩ := hV.refines hL
  obtain ⟨w', out, a', h1, h2, h3⟩ := step_refines hL dv hR op hleg.1
  have hfr := post_frame h2 ht
  refine ⟨w', out, h1, ?_⟩
  rcases hR.blankOrGrid_dims hd with ⟨hb, rfl⟩ | ⟨gt, hgt, rfl⟩
  · obtain ⟨q, q1, q2, q3⟩ := h3.blank (hfr.trans hb)
    refine ⟨hd, ?_, fun x y z h => absurd h.1 (Nat.not_lt_zero _)⟩
    simp only [DimsAre, World.step, World.withG, q1, q2]
  · have hg' := hfr.trans hgt
    exact ⟨hd, h3.dims hg', fun x y z h => unchanged_of hL hR h3 hgt hg' rfl h rfl⟩

example := C15_independent demoL_WF (op := .set 0 0 1 1 [demoCell, demoCell])
  (demo_next _ fun _ _ => .set (g := ⟨⟨3, 2, 2⟩, _, _⟩) rfl (by simp) (by simp) (by simp) (fun _ => trivial)) demo_dims1
  (by simp [Op.names])

/-- C10, part 1: bulk `set` stores the cells in order, bulk `get` returns them in order, nothing else changes. -/
theorem C10_bulk_set_get (hL : C.L.WF) {w : World V} (hV : Valid C dv w) {s : Nat} {d : Ext} (hd : DimsAre C w s d)
    {x y z : Nat} (cells : List (Cell V)) (hx : x + cells.length ≤ d.x) (hy : y < d.y) (hz : z < d.z) :
    ∃ w', w.step C (.set s x y z cells) = .ok (w', .unit) ∧ DimsAre C w' s d ∧
      (∀ (j : Nat) (c : Cell V), cells[j]? = some c → CellIs C w' s (x + j) y z c) ∧
      (∀ x' y' z', InDim d x' y' z' → ¬ (y' = y ∧ z' = z ∧ x ≤ x' ∧ x' < x + cells.length) →
        Unchanged C w w' s x' y' z') ∧
      (∀ target : List (Cell V), target.length = cells.length →
        ∃ out, w'.step C (.get s x y z target) = .ok (w', .cells out) ∧ out.length = cells.length ∧
          ∀ (j : Nat) (c t : Cell V), cells[j]? = some c → target[j]? = some t → out[j]? = some (overlay C.L c t)) := by
  obtain ⟨a, hR⟩ := hV.refines hL
  obtain ⟨g, hs, rfl⟩ := hR.of_dims hd (by rintro rfl; exact absurd hy (Nat.not_lt_zero _))
  obtain ⟨w', out, a', h1, h2, h3⟩ := step_refines hL dv hR (.set s x y z cells) ⟨g, hs, hx, hy, hz⟩
  cases h2 with
  | set _ _ _ _ _ new g' hg' hn =>
    rw [hs] at hg'; cases hg'
    have hs' := upd_self a s (.grid { g with cells := Spec.setRow g.cells x y z cells.length new })
    have hcell : ∀ (j : Nat) (c : Cell V), cells[j]? = some c → Spec.setRow g.cells x y z cells.length new (x + j) y z = c := by
      intro j c hj
      obtain ⟨hlt, hje⟩ := List.getElem?_eq_some_iff.1 hj
      have := hn j hlt
      rw [hj] at this
      simp only [Spec.setRow]
      rw [if_pos ⟨trivial, trivial, by omega, by omega⟩, Nat.add_sub_cancel_left]
      exact (Option.some.inj this).symm
    refine ⟨w', h1, dims_of h3 hs' rfl, ?_, ?_, ?_⟩
    · intro j c hj
      obtain ⟨hlt, hje⟩ := List.getElem?_eq_some_iff.1 hj
      have := h3.cellIs hL hs' (x := x + j) (y := y) (z := z) ⟨by show _ < g.dim.x; omega, hy, hz⟩
      exact CellIs.of_eq (hcell j c hj) this
    · intro x' y' z' hin' hne
      refine unchanged_of hL hR h3 hs hs' rfl hin' ?_
      simp only [Spec.setRow]
      rw [if_neg hne]
    · intro target hlen
      obtain ⟨w2, out2, a2, k1, k2, k3⟩ := step_refines hL dv h3 (.get s x y z target)
        ⟨_, hs', by rw [hlen]; exact hx, hy, hz⟩
      cases k2 with
      | get _ _ _ _ _ out2 g2 hg2 hl2 ho2 =>
        rw [hs'] at hg2; cases hg2
        have hw : w2 = w' := by
          obtain ⟨gg, q1, q2⟩ := h3.grid hs'
          obtain ⟨o, p1, p2, p3⟩ := q2.get hL (x := x) (y := y) (z := z) target (by rw [hlen]; exact hx) hy hz
          have e1 : w'.step C (.get s x y z target) = .ok (w', .cells o) := by
            simp only [World.step, World.withG, q1, p1, World.ofH]
          rw [e1] at k1
          injection k1 with k1
          injection k1 with k1 _
          exact k1.symm
        subst hw
        refine ⟨out2, k1, by rw [hl2, hlen], ?_⟩
        intro j c t hj ht
        rw [ho2 j t ht]
        show some (overlay C.L (Spec.setRow g.cells x y z cells.length new (x + j) y z) t) = _
        rw [hcell j c hj]

example := C10_bulk_set_get demoL_WF demo_valid demo_dims1 (x := 2) (y := 1) (z := 1) [demoCell, demoCell, demoCell]
  (by decide) (by decide) (by decide)

/-- The single `set` calls corresponding to a bulk `set`. -/
def singleSets (s y z : Nat) : Nat → List (Cell V) → List (Op V)
  | _, [] => []
  | x, c :: cs => .set s x y z [c] :: singleSets s y z (x + 1) cs

theorem run_singleSets (hL : C.L.WF) (dv : V) {s y z : Nat} (cells : List (Cell V)) {x : Nat} {w : World V} {a : AWorld V}
    (hR : R C w a) {g : AGrid V} (hs : a s = .grid g) (hx : x + cells.length ≤ g.dim.x) (hy : y < g.dim.y)
    (hz : z < g.dim.z) :
    ∃ w' outs a' g', w.run C (singleSets s y z x cells) = .ok (w', outs) ∧ (∀ o ∈ outs, o = .unit) ∧ R C w' a' ∧
      a' s = .grid g' ∧ g'.dim = g.dim ∧
      (∀ (j : Nat) (c : Cell V), cells[j]? = some c → g'.cells (x + j) y z = c) ∧
      (∀ x' y' z', ¬ (y' = y ∧ z' = z ∧ x ≤ x' ∧ x' < x + cells.length) → g'.cells x' y' z' = g.cells x' y' z') := by
  induction cells generalizing x w a g with
  | nil => exact ⟨w, [], a, g, rfl, (by simp), hR, hs, rfl, by simp, fun _ _ _ _ => rfl⟩
  | cons c cells ih =>
    simp only [List.length_cons] at hx
    obtain ⟨w1, out, a1, h1, h2, h3⟩ := step_refines hL dv hR (.set s x y z [c]) ⟨g, hs, by simp; omega, hy, hz⟩
    cases h2 with
    | set _ _ _ _ _ new g' hg' hn =>
      rw [hs] at hg'; cases hg'
      have hs' := upd_self a s (.grid { g with cells := Spec.setRow g.cells x y z [c].length new })
      obtain ⟨w2, outs, a2, g2, k1, k2, k3, k4, k5, k6, k7⟩ := ih h3 hs' (x := x + 1) (by show _ ≤ g.dim.x; omega) hy hz
      refine ⟨w2, .unit :: outs, a2, g2, ?_, ?_, k3, k4, k5, ?_, ?_⟩
      · simp only [singleSets, World.run, h1, k1]
      · intro o ho
        rcases List.mem_cons.1 ho with rfl | ho
        · rfl
        · exact k2 o ho
      · intro j c' hj
        cases j with
        | zero =>
          simp only [List.getElem?_cons_zero, Option.some.injEq] at hj
          subst hj
          rw [k7 _ _ _ (by omega)]
          have hnew : new 0 = c := by simpa using (hn 0 (by simp)).symm
          simp [Spec.setRow, hnew]
        | succ j =>
          simp only [List.getElem?_cons_succ] at hj
          have := k6 j c' hj
          rwa [show x + 1 + j = x + (j + 1) by omega] at this
      · intro x' y' z' hne
        simp only [List.length_cons] at hne
        rw [k7 _ _ _ (by omega)]
        simp only [Spec.setRow, List.length_cons, List.length_nil]
        rw [if_neg (by omega)]

/-- C10, part 2: a bulk `set` has the same effect as single `set`s at `x`, `x + 1`, … -/
theorem C10_bulk_set_is_singles (hL : C.L.WF) {w : World V} (hV : Valid C dv w) {s : Nat} {d : Ext}
    (hd : DimsAre C w s d) {x y z : Nat} (cells : List (Cell V)) (hx : x + cells.length ≤ d.x) (hy : y < d.y)
    (hz : z < d.z) :
    ∃ w1 w2 outs, w.step C (.set s x y z cells) = .ok (w1, .unit) ∧
      w.run C (singleSets s y z x cells) = .ok (w2, outs) ∧ (∀ o ∈ outs, o = .unit) ∧
      GridUnchanged C w1 w2 s d := by
  obtain ⟨w1, h1, h2, h3, h4, _⟩ := C10_bulk_set_get hL hV hd cells hx hy hz
  obtain ⟨a, hR⟩ := hV.refines hL
  obtain ⟨g, hs, rfl⟩ := hR.of_dims hd (by rintro rfl; exact absurd hy (Nat.not_lt_zero _))
  obtain ⟨w2, outs, a2, g2, k1, k2, k3, k4, k5, k6, k7⟩ := run_singleSets hL dv cells hR hs hx hy hz
  refine ⟨w1, w2, outs, h1, k1, k2, h2, by have := k3.dims k4; rwa [k5] at this, ?_⟩
  intro x' y' z' hin
  have hc2 := k3.cellIs hL k4 (x := x') (y := y') (z := z') (by rw [k5]; exact hin)
  by_cases hseg : y' = y ∧ z' = z ∧ x ≤ x' ∧ x' < x + cells.length
  · obtain ⟨rfl, rfl, hl, hu⟩ := hseg
    obtain ⟨j, rfl⟩ : ∃ j, x' = x + j := ⟨x' - x, by omega⟩
    have hj : cells[j]? = some cells[j] := List.getElem?_eq_getElem (by omega)
    refine ⟨_, h3 j _ hj, ?_⟩
    rwa [k6 j _ hj] at hc2
  · obtain ⟨c, q1, q2⟩ := h4 x' y' z' hin hseg
    rw [k7 _ _ _ hseg] at hc2
    exact ⟨c, q2, CellIs.congr (hR.cellIs hL hs hin) q1 hc2⟩

example := C10_bulk_set_is_singles demoL_WF demo_valid demo_dims1 (x := 2) (y := 1) (z := 1)
  [demoCell, demoCell, demoCell] (by decide) (by decide) (by decide)

/-- C10, part 3: bulk `get` returns what the single `get`s at `x`, `x + 1`, … return, and changes nothing. -/
theorem C10_bulk_get (hL : C.L.WF) {w : World V} (hV : Valid C dv w) {s : Nat} {d : Ext} (hd : DimsAre C w s d)
    {x y z : Nat} (target : List (Cell V)) (hx : x + target.length ≤ d.x) (hy : y < d.y) (hz : z < d.z) :
    ∃ out, w.step C (.get s x y z target) = .ok (w, .cells out) ∧ out.length = target.length ∧
      ∀ (j : Nat) (t o : Cell V), target[j]? = some t → out[j]? = some o → w.step C (.get s (x + j) y z [t]) = .ok (w, .cells [o]) := by
  obtain ⟨a, hR⟩ := hV.refines hL
  obtain ⟨g, hs, rfl⟩ := hR.of_dims hd (by rintro rfl; exact absurd hy (Nat.not_lt_zero _))
  obtain ⟨gg, q1, q2⟩ := hR.grid hs
  obtain ⟨o, p1, p2, p3⟩ := q2.get hL (x := x) (y := y) (z := z) target hx hy hz
  refine ⟨o, by simp only [World.step, World.withG, q1, p1, World.ofH], p2, ?_⟩
  intro j t o' hj ho
  rw [p3 j t hj] at ho
  cases ho
  obtain ⟨hlt, _⟩ := List.getElem?_eq_some_iff.1 hj
  exact hR.cellIs hL hs ⟨by omega, hy, hz⟩ t

example := C10_bulk_get demoL_WF demo_valid demo_dims1 (x := 2) (y := 1) (z := 1) [demoCell, demoCell, demoCell]
  (by decide) (by decide) (by decide)

/-- C11: `broadcast` fills exactly the row segment. -/
theorem C11_broadcast (hL : C.L.WF) {w : World V} (hV : Valid C dv w) {s : Nat} {d : Ext} (hd : DimsAre C w s d)
    {x y z : Nat} (c : Cell V) (n : Nat) (hx : x + n ≤ d.x) (hy : y < d.y) (hz : z < d.z) :
    ∃ w', w.step C (.broadcast s x y z c n) = .ok (w', .unit) ∧ DimsAre C w' s d ∧
      (∀ j, j < n → CellIs C w' s (x + j) y z c) ∧
      (∀ x' y' z', InDim d x' y' z' → ¬ (y' = y ∧ z' = z ∧ x ≤ x' ∧ x' < x + n) → Unchanged C w w' s x' y' z') := by
  obtain ⟨a, hR⟩ := hV.refines hL
  obtain ⟨g, hs, rfl⟩ := hR.of_dims hd (by rintro rfl; exact absurd hy (Nat.not_lt_zero _))
  obtain ⟨w', out, a', h1, h2, h3⟩ := step_refines hL dv hR (.broadcast s x y z c n) ⟨g, hs, hx, hy, hz⟩
  cases h2 with
  | broadcast _ _ _ _ _ _ g' hg' =>
    rw [hs] at hg'; cases hg'
    have hs' := upd_self a s (.grid { g with cells := Spec.setRow g.cells x y z n (fun _ => c) })
    refine ⟨w', h1, dims_of h3 hs' rfl, ?_, ?_⟩
    · intro j hj
      have := h3.cellIs hL hs' (x := x + j) (y := y) (z := z) ⟨by show _ < g.dim.x; omega, hy, hz⟩
      refine CellIs.of_eq ?_ this
      simp only [Spec.setRow]
      rw [if_pos ⟨trivial, trivial, by omega, by omega⟩]
    · intro x' y' z' hin' hne
      refine unchanged_of hL hR h3 hs hs' rfl hin' ?_
      simp only [Spec.setRow]
      rw [if_neg hne]

example := C11_broadcast demoL_WF demo_valid demo_dims1 (x := 2) (y := 1) (z := 1) demoCell 3 (by decide) (by decide) (by decide)

/-! ### load and save -/

theorem holds_unique {b : Block V} {a : Nat} {ty : Ty} {v v' : V} (hs : 0 < ty.size) (h : b.Holds a ty v)
    (h' : b.Holds a ty v') : v = v' := by
  have e1 := h 0 hs
  rw [h' 0 hs] at e1
  injection e1 with e1
  exact e1.symm

theorem scatter_get (cells : Nat → Nat → Nat → Cell V) (l : List ((Nat × Nat × Nat) × Cell V)) (x y z : Nat)
    (h : ∀ q ∈ l, q.1 ≠ (x, y, z)) : Spec.scatter cells l x y z = cells x y z := by
  induction l generalizing cells with
  | nil => rfl
  | cons q l ih =>
    rw [Spec.scatter, ih _ (fun q' hq' => h q' (by simp [hq']))]
    rw [if_neg (fun he => h q (by simp) he.symm)]

theorem scatter_nodup (cells : Nat → Nat → Nat → Cell V) (l : List ((Nat × Nat × Nat) × Cell V)) (x y z : Nat) (c : Cell V)
    (hn : (l.map Prod.fst).Nodup) (h : ((x, y, z), c) ∈ l) : Spec.scatter cells l x y z = c := by
  induction l generalizing cells with
  | nil => cases h
  | cons q l ih =>
    rw [Spec.scatter]
    rw [List.map_cons, List.nodup_cons] at hn
    rcases List.mem_cons.1 h with rfl | h
    · rw [scatter_get]
      · simp
      · intro q' hq' he
        exact hn.1 (List.mem_map.2 ⟨q', hq', he⟩)
    · exact ih _ hn.2 h

theorem scatter_fun (cells : Nat → Nat → Nat → Cell V) (f : Nat × Nat × Nat → Cell V) (cs : List (Nat × Nat × Nat))
    (x y z : Nat) : Spec.scatter cells (cs.zip (cs.map f)) x y z = if (x, y, z) ∈ cs then f (x, y, z) else cells x y z := by
  induction cs generalizing cells with
  | nil => simp [Spec.scatter]
  | cons p cs ih =>
    simp only [List.map_cons, List.zip_cons_cons, Spec.scatter, ih, List.mem_cons]
    by_cases h1 : (x, y, z) ∈ cs
    · simp [h1]
    · by_cases h2 : (x, y, z) = p
      · subst h2; simp [h1]
      · simp [h1, h2]

theorem mem_coords {ss : List Streak} {p : Nat × Nat × Nat} :
    p ∈ Spec.coords ss ↔ ∃ st ∈ ss, ∃ j, j < st.len ∧ p = (st.x + j, st.y, st.z) := by
  simp only [Spec.coords, List.mem_flatMap, List.mem_map, List.mem_range]
  constructor
  · rintro ⟨st, h1, j, h2, h3⟩; exact ⟨st, h1, j, h2, h3.symm⟩
  · rintro ⟨st, h1, j, h2, h3⟩; exact ⟨st, h1, j, h2, h3.symm⟩

theorem coords_in {d : Ext} {ss : List Streak} (hss : ∀ st ∈ ss, Spec.StreakIn d st) {p : Nat × Nat × Nat}
    (hp : p ∈ Spec.coords ss) : InDim d p.1 p.2.1 p.2.2 := by
  obtain ⟨st, h1, j, h2, rfl⟩ := mem_coords.1 hp
  obtain ⟨q1, q2, q3⟩ := hss st h1
  exact ⟨by show st.x + j < d.x; omega, q2, q3⟩

/-- C13, `save`: value `i` of each member and array element is that of the `i`-th covered cell; only the first
    `n * structBytes` bytes are written, the grid does not change. -/
theorem C13_save (hL : C.L.WF) {w : World V} (hV : Valid C dv w) {s : Nat} {d : Ext} (hd : DimsAre C w s d)
    (hd0 : d ≠ ⟨0, 0, 0⟩) (ss : List Streak) (hss : ∀ st ∈ ss, Spec.StreakIn d st) (n : Nat)
    (hn : (Spec.coords ss).length ≤ n) (tgt : Block V) (ht : Spec.RawReady C.L n tgt) :
    ∃ out rows, w.step C (.save s ss tgt n) = .ok (w, .raw out) ∧ out.size = tgt.size ∧
      (∀ i, n * Spec.structBytes C.L ≤ i → out.get i = tgt.get i) ∧
      Spec.Packed C.L n rows out ∧ rows.length = (Spec.coords ss).length ∧
      ∀ (i x y z : Nat) (row : Cell V), (Spec.coords ss)[i]? = some (x, y, z) → rows[i]? = some row → CellIs C w s x y z row := by
  obtain ⟨a, hR⟩ := hV.refines hL
  obtain ⟨g, hs, rfl⟩ := hR.of_dims hd hd0
  obtain ⟨w', out, a', h1, h2, h3⟩ := step_refines hL dv hR (.save s ss tgt n) ⟨g, hs, hss, hn, ht⟩
  have hw : w' = w := by
    obtain ⟨gg, q1, q2⟩ := hR.grid hs
    simp only [World.step, World.withG, q1, Grid.save] at h1
    exact world_of_ofH h1 callbackRead_heap.1 callbackRead_heap.2
  subst hw
  cases h2 with
  | save _ _ _ out _ g' hg' hp hsz hf =>
    rw [hs] at hg'; cases hg'
    refine ⟨out, _, h1, hsz, hf, hp, by simp, ?_⟩
    intro i x y z row hi hrow
    rw [List.getElem?_map, hi] at hrow
    cases hrow
    exact hR.cellIs hL hs (coords_in hss (List.mem_of_getElem? hi))

example := C13_save demoL_WF demo_valid demo_dims1 (by decide) [⟨0, 1, 1, 2⟩, ⟨3, 0, 1, 2⟩]
  (by simp [Spec.StreakIn]) 5 (by decide) (demoRaw 5) (demoRaw_ready 5)

/-- C13, `load`: from a packed buffer, the `i`-th covered cell becomes the `i`-th packed struct (streaks not overlapping);
    all other cells keep their values. -/
theorem C13_load (hL : C.L.WF) {w : World V} (hV : Valid C dv w) {s : Nat} {d : Ext} (hd : DimsAre C w s d)
    (hd0 : d ≠ ⟨0, 0, 0⟩) (ss : List Streak) (hss : ∀ st ∈ ss, Spec.StreakIn d st) (n : Nat)
    (hn : (Spec.coords ss).length ≤ n) (src : Block V) (rows : List (Cell V))
    (hlen : rows.length = (Spec.coords ss).length) (hp : Spec.Packed C.L n rows src) :
    ∃ w', w.step C (.load s ss src n) = .ok (w', .unit) ∧ DimsAre C w' s d ∧
      ((Spec.coords ss).Nodup → ∀ (i x y z : Nat) (row : Cell V), (Spec.coords ss)[i]? = some (x, y, z) → rows[i]? = some row →
        CellIs C w' s x y z row) ∧
      (∀ x y z, InDim d x y z → (x, y, z) ∉ Spec.coords ss → Unchanged C w w' s x y z) := by
  obtain ⟨a, hR⟩ := hV.refines hL
  obtain ⟨g, hs, rfl⟩ := hR.of_dims hd hd0
  obtain ⟨w', out, a', h1, h2, h3⟩ := step_refines hL dv hR (.load s ss src n) ⟨g, hs, hss, hn, rows, hlen, hp⟩
  cases h2 with
  | load _ _ _ _ g' rows' hg' hlen' hp' =>
    rw [hs] at hg'; cases hg'
    have hs' := upd_self a s (.grid { g with cells := Spec.scatter g.cells ((Spec.coords ss).zip rows') })
    refine ⟨w', h1, dims_of h3 hs' rfl, ?_, ?_⟩
    · intro hnd i x y z row hi hrow
      have hmem := List.mem_of_getElem? hi
      have hil : i < (Spec.coords ss).length := (List.getElem?_eq_some_iff.1 hi).1
      have hrow' : rows'[i]? = some rows'[i] := List.getElem?_eq_getElem (by omega)
      have hc := h3.cellIs hL hs' (x := x) (y := y) (z := z) (coords_in hss hmem)
      have hval : Spec.scatter g.cells ((Spec.coords ss).zip rows') x y z = rows'[i] := by
        apply scatter_nodup
        · rw [List.map_fst_zip (by omega)]; exact hnd
        · have : ((Spec.coords ss).zip rows')[i]? = some ((x, y, z), rows'[i]) := by
            rw [List.getElem?_zip_eq_some]; exact ⟨hi, hrow'⟩
          exact List.mem_of_getElem? this
      replace hc := CellIs.of_eq hval hc
      intro t
      rw [hc t, overlay_congr]
      intro r m k hm hk
      exact holds_unique (hL.size_pos hm) (hp'.vals r m k i _ hm hk hrow') (hp.vals r m k i _ hm hk hrow)
    · intro x y z hin hne
      refine unchanged_of hL hR h3 hs hs' rfl hin ?_
      refine scatter_get _ _ _ _ _ ?_
      intro q hq he
      have := (List.of_mem_zip (a := q.1) (b := q.2) hq).1
      rw [he] at this
      exact hne this

example : ∃ (src : Block Int) (rows : List (Cell Int)) (w' : World Int), Spec.Packed demoC.L 5 rows src ∧
    demoW.step demoC (.load 1 [⟨0, 1, 1, 2⟩, ⟨3, 0, 1, 2⟩] src 5) = .ok (w', .unit) := by
  obtain ⟨out, rows, _, _, _, h1, h2, _⟩ := C13_save demoL_WF demo_valid demo_dims1 (by decide) [⟨0, 1, 1, 2⟩, ⟨3, 0, 1, 2⟩]
    (by simp [Spec.StreakIn]) 5 (by decide) (demoRaw 5) (demoRaw_ready 5)
  obtain ⟨w', h3, _⟩ := C13_load demoL_WF demo_valid demo_dims1 (by decide) [⟨0, 1, 1, 2⟩, ⟨3, 0, 1, 2⟩]
    (by simp [Spec.StreakIn]) 5 (by decide) out rows h2 h1
  exact ⟨out, rows, w', h1, h3⟩

end
end LFA.Props
