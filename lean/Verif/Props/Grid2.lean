import Verif.Props.Grid

/-
  C08, C12–C22: extents, save/load round trips, histories, copies, swap, resize, lifecycle, dual callbacks, order of writes.
-/
set_option linter.unusedSectionVars false
namespace LFA.Props
open LFA

section
variable {V : Type} [DecidableEq V] {C : Cfg V} {dv : V}

/-! ### C08 -/

/-- C08, any grid at any time: the buffer behind a grid has exactly `byte_size()` bytes, which is the number of bytes of all
    cells of the padded extents; those are at least the dimensions. -/
theorem C08_byte_size (hL : C.L.WF) {w : World V} (hV : Valid C dv w) {s : Nat} {d : Ext} (hd : DimsAre C w s d)
    (hd0 : d ≠ ⟨0, 0, 0⟩) :
    ∃ e n g id b, selectSizes C.tr d = .ok e ∧ d.x ≤ e.x ∧ d.y ≤ e.y ∧ d.z ≤ e.z ∧
      n = e.x * e.y * e.z * Spec.structBytes C.L ∧ w.step C (.byteSize s) = .ok (w, .nat n) ∧
      w.g s = some g ∧ g.data = some id ∧ w.h.blk id = some b ∧ b.size = n := by
  obtain ⟨a, hR⟩ := hV.refines hL
  obtain ⟨ag, hs, rfl⟩ := hR.of_dims hd hd0
  obtain ⟨g, q1, q2⟩ := hR.grid hs
  obtain ⟨e, id, b, k1, k2, k3, k4, k5, _⟩ := q2.2
  obtain ⟨f1, f2, f3⟩ := selectSizes_fits k1
  refine ⟨e, byteSizeOf C.L e, g, id, b, k1, f1, f2, f3, ?_, ?_, q1, k2, k3, ?_⟩
  · rw [byteSizeOf_eq, structBytes_eq, Nat.mul_comm]; rfl
  · simp only [World.step, World.withG, q1, k5]
  · rw [k4, byteSizeOf_eq]

example := C08_byte_size demoL_WF demo_valid demo_dims0 (by decide)

/-- Everything C08 says about a grid that was just given dimensions. -/
structure SizesReported (C : Cfg V) (w : World V) (s : Nat) (d e : Ext) : Prop where
  dims : DimsAre C w s d
  extents : w.step C (.extents s) = .ok (w, .triple e)
  fits : d.x ≤ e.x ∧ d.y ≤ e.y ∧ d.z ≤ e.z
  bytes : w.step C (.byteSize s) = .ok (w, .nat (e.x * e.y * e.z * Spec.structBytes C.L))
  buffer : ∃ g id b, w.g s = some g ∧ g.data = some id ∧ w.h.blk id = some b ∧
    b.size = e.x * e.y * e.z * Spec.structBytes C.L

theorem sizesReported_of {w : World V} {a : AWorld V} (hR : R C w a) {s : Nat} {g : AGrid V} {e : Ext}
    (hs : a s = .grid g) (he : g.ext = some e) : SizesReported C w s g.dim e := by
  obtain ⟨gg, q1, q2⟩ := hR.grid hs
  obtain ⟨e', id, b, k1, k2, k3, k4, k5, _, k7⟩ := q2.2
  obtain ⟨rfl, x1, x2, x3⟩ := k7 e he
  have hn : byteSizeOf C.L e = e.x * e.y * e.z * Spec.structBytes C.L := by
    rw [byteSizeOf_eq, structBytes_eq, Nat.mul_comm]; rfl
  refine ⟨hR.dims hs, ?_, selectSizes_fits k1, ?_, gg, id, b, q1, k2, k3, ?_⟩
  · simp only [World.step, World.withG, q1, x1, x2, x3]
  · simp only [World.step, World.withG, q1, k5, hn]
  · rw [k4, ← byteSizeOf_eq, hn]

theorem absent_of (hL : C.L.WF) {w : World V} {a : AWorld V} (hR : R C w a) {s : Nat} (h : w.g s = none) :
    a s = .absent := by
  have := hR.slots s
  rw [h] at this
  cases ha : a s with
  | absent => rfl
  | blank => rw [ha] at this; obtain ⟨_, h, _⟩ := this; cases h
  | grid g => rw [ha] at this; obtain ⟨_, h, _⟩ := this; cases h

theorem present_of {w : World V} {a : AWorld V} (hR : R C w a) {s : Nat} {d : Ext} (h : DimsAre C w s d) :
    a s ≠ .absent := by
  intro ha
  simp [DimsAre, World.step, World.withG, hR.absent ha] at h

/-- C08, construction. -/
theorem C08_construct_partial (hL : C.L.WF) {w : World V} (hV : Valid C dv w) {s : Nat} (hs : w.g s = none) {d e : Ext}
    (hd : d ≠ ⟨0, 0, 0⟩) (he : selectSizes C.tr d = .ok e) :
    ∃ w', w.step C (.new s d) = .ok (w', .unit) ∧ SizesReported C w' s d e := by
  obtain ⟨a, hR⟩ := hV.refines hL
  obtain ⟨w', out, a', h1, h2, h3⟩ := step_refines hL dv hR (.new s d) (absent_of hL hR hs)
  cases h2 with
  | newBlank => exact absurd rfl hd
  | newFail _ _ x _ hx => rw [he] at hx; cases hx
  | new _ _ e' _ he' =>
    rw [he] at he'; cases he'
    exact ⟨w', h1, sizesReported_of h3 (upd_self _ _ _) rfl⟩

example := C08_construct_partial demoL_WF demo_valid (demo_free (s := 2) (by decide)) (d := ⟨7, 3, 2⟩) (by decide) rfl

/-- C08, resize to other dimensions. -/
theorem C08_resize (hL : C.L.WF) {w : World V} (hV : Valid C dv w) {s : Nat} {d0 d e : Ext} (hd : DimsAre C w s d0)
    (hne : d ≠ d0) (he : selectSizes C.tr d = .ok e) :
    ∃ w', w.step C (.resize s d) = .ok (w', .unit) ∧ SizesReported C w' s d e := by
  obtain ⟨a, hR⟩ := hV.refines hL
  have hpre : Spec.Pre C a (.resize s d) := by
    have := present_of hR hd
    simp only [Spec.Pre]
    cases ha : a s with
    | absent => contradiction
    | blank => exact .inr ⟨e, he⟩
    | grid _ => exact ⟨e, he⟩
  obtain ⟨w', out, a', h1, h2, h3⟩ := step_refines hL dv hR (.resize s d) hpre
  cases h2 with
  | resizeBlank _ hb =>
    rcases hR.blankOrGrid_dims hd with ⟨_, rfl⟩ | ⟨gt, hgt, _⟩
    · exact absurd rfl hne
    · rw [hb] at hgt; cases hgt
  | resizeSame _ g hg =>
    rcases hR.blankOrGrid_dims hd with ⟨hb, _⟩ | ⟨gt, hgt, rfl⟩
    · rw [hb] at hg; cases hg
    · rw [hg] at hgt; cases hgt; exact absurd rfl hne
  | resize _ _ e' _ _ _ he' =>
    rw [he] at he'; cases he'
    exact ⟨w', h1, sizesReported_of h3 (upd_self _ _ _) rfl⟩

example := C08_resize demoL_WF demo_valid demo_dims0 (d := ⟨7, 3, 2⟩) (by decide) rfl

/-! ### C12, C13: round trips -/

theorem coords_single (x y z n : Nat) :
    Spec.coords [⟨x, y, z, n⟩] = (List.range n).map fun j => (x + j, y, z) := by simp [Spec.coords]

theorem coords_single_get {x y z n j : Nat} (hj : j < n) : (Spec.coords [⟨x, y, z, n⟩])[j]? = some (x + j, y, z) := by
  rw [coords_single]; simp [hj]

theorem coords_single_nodup (x y z n : Nat) : (Spec.coords [⟨x, y, z, n⟩]).Nodup := by
  rw [coords_single, List.nodup_iff_pairwise_ne, List.pairwise_map]
  refine List.Pairwise.imp ?_ (List.nodup_iff_pairwise_ne.1 List.nodup_range)
  intro i j h he
  simp only [Prod.mk.injEq, and_true] at he
  omega

/-- C12, part 1: `save(x, y, z, buf, n)` writes a packed struct of arrays with exactly `n * structBytes` bytes. -/
theorem C12_save_format (hL : C.L.WF) {w : World V} (hV : Valid C dv w) {s : Nat} {d : Ext} (hd : DimsAre C w s d)
    {x y z n : Nat} (hx : x + n ≤ d.x) (hy : y < d.y) (hz : z < d.z) (tgt : Block V)
    (ht : Spec.RawReady C.L n tgt) :
    ∃ out, w.step C (.save s [⟨x, y, z, n⟩] tgt n) = .ok (w, .raw out) ∧ out.size = tgt.size ∧
      (∀ i, n * Spec.structBytes C.L ≤ i → out.get i = tgt.get i) ∧
      (∀ j, j < n → ∃ c, CellIs C w s (x + j) y z c ∧ ∀ r m k, C.L[r]? = some m → k < m.elems →
        out.Holds (n * (Spec.bytesBefore C.L r + m.ty.size * k) + j * m.ty.size) m.ty (c r k)) := by
  obtain ⟨out, rows, h1, h2, h3, h4, h5, h6⟩ := C13_save hL hV hd (by rintro rfl; exact absurd hy (Nat.not_lt_zero _))
    [⟨x, y, z, n⟩] (by simp [Spec.StreakIn, hx, hy, hz]) n (by simp [coords_single]) tgt ht
  refine ⟨out, h1, h2, h3, ?_⟩
  intro j hj
  have hjl : j < rows.length := by rw [h5, coords_single]; simpa using hj
  have hrow : rows[j]? = some rows[j] := List.getElem?_eq_getElem hjl
  exact ⟨rows[j], h6 j _ _ _ _ (coords_single_get hj) hrow, fun r m k hm hk => h4.vals r m k j _ hm hk hrow⟩

example := C12_save_format demoL_WF demo_valid demo_dims1 (x := 2) (y := 1) (z := 0) (n := 3) (by decide) (by decide) (by decide)
  (demoRaw 3) (demoRaw_ready 3)

/-- C12, part 2: a saved row segment can be loaded at any position of any grid (in another program, with other sizes). -/
theorem C12_save_load (hL : C.L.WF) {w : World V} (hV : Valid C dv w) {s : Nat} {d : Ext} (hd : DimsAre C w s d)
    {x y z n : Nat} (hx : x + n ≤ d.x) (hy : y < d.y) (hz : z < d.z) (tgt : Block V) (ht : Spec.RawReady C.L n tgt)
    {C2 : Cfg V} (hC2 : C2.L = C.L) {w2 : World V} (hV2 : Valid C2 dv w2) {t : Nat} {d2 : Ext} (hd2 : DimsAre C2 w2 t d2)
    {x2 y2 z2 : Nat} (hx2 : x2 + n ≤ d2.x) (hy2 : y2 < d2.y) (hz2 : z2 < d2.z) :
    ∃ out w2', w.step C (.save s [⟨x, y, z, n⟩] tgt n) = .ok (w, .raw out) ∧
      w2.step C2 (.load t [⟨x2, y2, z2, n⟩] out n) = .ok (w2', .unit) ∧ DimsAre C2 w2' t d2 ∧
      (∀ j, j < n → ∃ c, CellIs C w s (x + j) y z c ∧ CellIs C2 w2' t (x2 + j) y2 z2 c) ∧
      (∀ x' y' z', InDim d2 x' y' z' → ¬ (y' = y2 ∧ z' = z2 ∧ x2 ≤ x' ∧ x' < x2 + n) →
        Unchanged C2 w2 w2' t x' y' z') := by
  obtain ⟨out, rows, h1, h2, h3, h4, h5, h6⟩ := C13_save hL hV hd (by rintro rfl; exact absurd hy (Nat.not_lt_zero _))
    [⟨x, y, z, n⟩] (by simp [Spec.StreakIn, hx, hy, hz]) n (by simp [coords_single]) tgt ht
  have hlen : rows.length = n := by rw [h5, coords_single]; simp
  obtain ⟨w2', k1, k2, k3, k4⟩ := C13_load (by rw [hC2]; exact hL) hV2 hd2
    (by rintro rfl; exact absurd hy2 (Nat.not_lt_zero _)) [⟨x2, y2, z2, n⟩] (by simp [Spec.StreakIn, hx2, hy2, hz2]) n
    (by simp [coords_single]) out rows (by rw [hlen]; simp [coords_single]) (by rw [hC2]; exact h4)
  refine ⟨out, w2', h1, k1, k2, ?_, ?_⟩
  · intro j hj
    have hrow : rows[j]? = some rows[j] := List.getElem?_eq_getElem (by omega)
    exact ⟨rows[j], h6 j _ _ _ _ (coords_single_get hj) hrow,
      k3 (coords_single_nodup _ _ _ _) j _ _ _ _ (coords_single_get hj) hrow⟩
  · intro x' y' z' hin hne
    refine k4 x' y' z' hin ?_
    intro hm
    obtain ⟨st, hst, j, hj, he⟩ := mem_coords.1 hm
    simp only [List.mem_singleton] at hst
    subst hst
    simp only [Prod.mk.injEq] at he
    exact hne ⟨he.2.1, he.2.2, by omega, by simp only at hj; omega⟩

example := C12_save_load demoL_WF demo_valid demo_dims1 (x := 2) (y := 1) (z := 0) (n := 3) (by decide) (by decide) (by decide)
  (demoRaw 3) (demoRaw_ready 3) rfl demo_valid demo_dims0 (x2 := 0) (y2 := 0) (z2 := 1) (by decide) (by decide) (by decide)

/-- C13, round trip: saving and loading with the same streaks (overlapping or not) reproduces every covered cell and leaves
    the rest unchanged. -/
theorem C13_save_load (hL : C.L.WF) {w : World V} (hV : Valid C dv w) {s : Nat} {d : Ext} (hd : DimsAre C w s d)
    (hd0 : d ≠ ⟨0, 0, 0⟩) (ss : List Streak) (hss : ∀ st ∈ ss, Spec.StreakIn d st) {n : Nat}
    (hn : (Spec.coords ss).length ≤ n) (tgt : Block V) (ht : Spec.RawReady C.L n tgt)
    {C2 : Cfg V} (hC2 : C2.L = C.L) {w2 : World V} (hV2 : Valid C2 dv w2) {t : Nat} {d2 : Ext} (hd2 : DimsAre C2 w2 t d2)
    (hd20 : d2 ≠ ⟨0, 0, 0⟩) (hss2 : ∀ st ∈ ss, Spec.StreakIn d2 st) :
    ∃ out w2', w.step C (.save s ss tgt n) = .ok (w, .raw out) ∧ w2.step C2 (.load t ss out n) = .ok (w2', .unit) ∧
      DimsAre C2 w2' t d2 ∧
      (∀ x y z, (x, y, z) ∈ Spec.coords ss → ∃ c, CellIs C w s x y z c ∧ CellIs C2 w2' t x y z c) ∧
      (∀ x y z, InDim d2 x y z → (x, y, z) ∉ Spec.coords ss → Unchanged C2 w2 w2' t x y z) := by
  have hL2 : C2.L.WF := by rw [hC2]; exact hL
  obtain ⟨a, hR⟩ := hV.refines hL
  obtain ⟨g, hs, rfl⟩ := hR.of_dims hd hd0
  obtain ⟨w', out, a', h1, h2, h3⟩ := step_refines hL dv hR (.save s ss tgt n) ⟨g, hs, hss, hn, ht⟩
  have hw : w' = w := by
    obtain ⟨gg, q1, q2⟩ := hR.grid hs
    simp only [World.step, World.withG, q1, Grid.save] at h1
    exact world_of_ofH h1 callbackRead_heap.1 callbackRead_heap.2
  subst hw
  cases h2 with
  | save _ _ _ out _ g' hg' hp hsz hf =>
    rw [hs] at hg'; cases hg'
    obtain ⟨a2, hR2⟩ := hV2.refines hL2
    obtain ⟨g2, hs2, rfl⟩ := hR2.of_dims hd2 hd20
    obtain ⟨w2', out2, a2', k1, k2, k3⟩ := step_refines hL2 dv hR2 (.load t ss out n)
      ⟨g2, hs2, hss2, hn, (Spec.coords ss).map fun p => g.cells p.1 p.2.1 p.2.2, by simp, by rw [hC2]; exact hp⟩
    cases k2 with
    | load _ _ _ _ g2' rows' hg2' hlen' hp' =>
      rw [hs2] at hg2'; cases hg2'
      have hs2' := upd_self a2 t (.grid { g2 with cells := Spec.scatter g2.cells ((Spec.coords ss).zip rows') })
      refine ⟨out, w2', h1, k1, dims_of k3 hs2' rfl, ?_, ?_⟩
      · intro x y z hmem
        have hc := hR.cellIs hL hs (x := x) (y := y) (z := z) (coords_in hss hmem)
        refine ⟨_, hc, ?_⟩
        -- the rows which are loaded agree with the saved ones on all registered members
        rw [k3.cellIs_iff hL2 hs2' (coords_in hss2 hmem)]
        intro r m k hm hk
        have hrows : ∀ (i : Nat) (row : Cell V), rows'[i]? = some row → ∀ p, (Spec.coords ss)[i]? = some p →
            row r k = g.cells p.1 p.2.1 p.2.2 r k := by
          intro i row hrow p hpi
          have hm' : C.L[r]? = some m := by rw [← hC2]; exact hm
          refine holds_unique (hL.size_pos hm') (by rw [← hC2]; exact hp'.vals r m k i _ hm hk hrow)
            (hp.vals r m k i (g.cells p.1 p.2.1 p.2.2) hm' hk ?_)
          rw [List.getElem?_map, hpi]; rfl
        clear hp hp' k1 k3 h1 hn hs2' ht
        -- the last occurrence of the coordinate determines the value
        show g.cells x y z r k = Spec.scatter g2.cells ((Spec.coords ss).zip rows') x y z r k
        generalize Spec.coords ss = cs at hmem hlen' hrows
        generalize g2.cells = cells0
        induction cs generalizing rows' cells0 with
        | nil => cases hmem
        | cons p cs ih =>
          cases rows' with
          | nil => simp at hlen'
          | cons row rows' =>
            simp only [List.zip_cons_cons, Spec.scatter]
            by_cases hin : (x, y, z) ∈ cs
            · exact ih rows' hin (by simpa using hlen') (fun i row' h1 p' h2 => hrows (i + 1) row' (by simpa using h1) p'
                (by simpa using h2)) _
            · have hxp : (x, y, z) = p := by
                rcases List.mem_cons.1 hmem with h | h
                · exact h
                · exact absurd h hin
              rw [scatter_get]
              · rw [if_pos hxp, hrows 0 row rfl p rfl, ← hxp]
              · intro q hq he
                have := (List.of_mem_zip (a := q.1) (b := q.2) hq).1
                rw [he] at this
                exact hin this
      · intro x y z hin hne
        refine unchanged_of hL2 hR2 k3 hs2 hs2' rfl hin ?_
        refine scatter_get _ _ _ _ _ ?_
        intro q hq he
        have := (List.of_mem_zip (a := q.1) (b := q.2) hq).1
        rw [he] at this
        exact hne this

/-- The streaks overlap. -/
example := C13_save_load demoL_WF demo_valid demo_dims1 (by decide) [⟨0, 1, 1, 2⟩, ⟨1, 1, 1, 2⟩] (by simp [Spec.StreakIn])
  (n := 4) (by decide) (demoRaw 4) (demoRaw_ready 4) rfl demo_valid demo_dims0 (by decide) (by simp [Spec.StreakIn])

/-! ### C14 -/

/-- C14: every program that respects the contracts (`Spec.Pre`) runs without undefined behaviour, and everything it observes is what the
    specification in terms of plain 3D arrays allows. -/
theorem C14_history_partial (hL : C.L.WF) (ops : List (Op V)) (hleg : Spec.Legal C dv Spec.start ops) :
    ∃ w outs a, World.init.run C ops = .ok (w, outs) ∧ Spec.Run C dv Spec.start ops a outs := by
  obtain ⟨w, outs, a, h1, h2, _⟩ := run_refines hL R.init ops [] (by rw [List.append_nil]; exact hleg)
  exact ⟨w, outs, a, h1, h2⟩

example := C14_history_partial demoL_WF demoOps demo_legal

/-! ### C15, C16: copies -/

/-- C15, copy construction. -/
theorem C15_copy_partial (hL : C.L.WF) {w : World V} (hV : Valid C dv w) {s t : Nat} (hs : w.g s = none) {d : Ext}
    (hd : DimsAre C w t d) (hd0 : d ≠ ⟨0, 0, 0⟩) :
    ∃ w', w.step C (.copy s t) = .ok (w', .unit) ∧ DimsAre C w' s d ∧ DimsAre C w' t d ∧
      ∀ x y z, InDim d x y z → ∃ c, CellIs C w t x y z c ∧ CellIs C w' t x y z c ∧ CellIs C w' s x y z c := by
  obtain ⟨a, hR⟩ := hV.refines hL
  obtain ⟨g, ht, rfl⟩ := hR.of_dims hd hd0
  have hsa := absent_of hL hR hs
  have hne : t ≠ s := by rintro rfl; rw [hsa] at ht; cases ht
  obtain ⟨w', out, a', h1, h2, h3⟩ := step_refines hL dv hR (.copy s t) ⟨hsa, g, ht⟩
  cases h2 with
  | copy _ _ g' hg' =>
    rw [ht] at hg'; cases hg'
    have hs' := upd_self a s (.grid { g with ext := none })
    have ht' : World.upd a s (.grid { g with ext := none }) t = .grid g := by rw [upd_ne _ _ hne, ht]
    refine ⟨w', h1, dims_of h3 hs' rfl, dims_of h3 ht' rfl, fun x y z hin => ?_⟩
    exact ⟨_, hR.cellIs hL ht hin, h3.cellIs hL ht' hin, h3.cellIs hL hs' (x := x) (y := y) (z := z) hin⟩

example := C15_copy_partial demoL_WF demo_valid (demo_free (s := 2) (by decide)) demo_dims1 (by decide)

/-- C15, assignment (including self-assignment). -/
theorem C15_assign_partial (hL : C.L.WF) {w : World V} (hV : Valid C dv w) {s t : Nat} {ds d : Ext} (hs : DimsAre C w s ds)
    (hd : DimsAre C w t d) (hd0 : d ≠ ⟨0, 0, 0⟩) :
    ∃ w', w.step C (.assign s t) = .ok (w', .unit) ∧ DimsAre C w' s d ∧ DimsAre C w' t d ∧
      ∀ x y z, InDim d x y z → ∃ c, CellIs C w t x y z c ∧ CellIs C w' t x y z c ∧ CellIs C w' s x y z c := by
  obtain ⟨a, hR⟩ := hV.refines hL
  obtain ⟨g, ht, rfl⟩ := hR.of_dims hd hd0
  obtain ⟨w', out, a', h1, h2, h3⟩ := step_refines hL dv hR (.assign s t) ⟨present_of hR hs, g, ht⟩
  cases h2 with
  | assignBlank =>
    rename_i g' hz _ hg'
    rw [ht] at hg'; cases hg'; exact absurd hz hd0
  | assign _ _ g' ext hg' hext =>
    rw [ht] at hg'; cases hg'
    have hs' := upd_self a s (.grid { g with ext := ext })
    obtain ⟨gt, ht', hgd, hgc⟩ : ∃ gt, World.upd a s (.grid { g with ext := ext }) t = .grid gt ∧ gt.dim = g.dim ∧
        gt.cells = g.cells := by
      by_cases hne : t = s
      · subst hne; exact ⟨_, upd_self _ _ _, rfl, rfl⟩
      · exact ⟨g, by rw [upd_ne _ _ hne, ht], rfl, rfl⟩
    refine ⟨w', h1, dims_of h3 hs' rfl, dims_of h3 ht' hgd, fun x y z hin => ?_⟩
    have hct := h3.cellIs hL ht' (x := x) (y := y) (z := z) (by rw [hgd]; exact hin)
    rw [hgc] at hct
    exact ⟨_, hR.cellIs hL ht hin, hct, h3.cellIs hL hs' (x := x) (y := y) (z := z) hin⟩

example := C15_assign_partial demoL_WF demo_valid demo_dims0 demo_dims1 (by decide)

theorem copyCtor_ext {other : Grid} {h h' : Heap V} {g : Grid} (hc : Grid.copyCtor C other h = .ok () (g, h')) :
    g.ex = none ∧ g.ey = none ∧ g.ez = none := by
  unfold Grid.copyCtor at hc
  split at hc
  · cases hc
  · rename_i n hn
    simp only at hc
    cases hi : Grid.init C (⟨other.dim, none, none, none, some n, some (h.alloc n).1⟩ : Grid) (h.alloc n).2 with
    | ok u h1 =>
      rw [hi] at hc
      simp only [Res.withGrid, Res.bind, Grid.copyIn] at hc
      split at hc
      · injection hc with _ hc; injection hc with hc _; subst hc; exact ⟨rfl, rfl, rfl⟩
      · cases hc
      · cases hc
    | throw e h1 => rw [hi] at hc; cases hc
    | ub u => rw [hi] at hc; cases hc

/-- C16 does not hold: after copy construction, reading the extents of the copy reads uninitialised members. -/
theorem C16_false (hL : C.L.WF) {w : World V} (hV : Valid C dv w) {s t : Nat} (hs : w.g s = none) {d : Ext}
    (hd : DimsAre C w t d) (hd0 : d ≠ ⟨0, 0, 0⟩) :
    ∃ w', w.step C (.copy s t) = .ok (w', .unit) ∧ w'.step C (.extents s) = .error .uninitField := by
  obtain ⟨w', h1, h2, _⟩ := C15_copy_partial hL hV hs hd hd0
  refine ⟨w', h1, ?_⟩
  simp only [World.step, hs] at h1
  unfold World.withG at h1
  split at h1
  · cases h1
  · rename_i g ht
    cases hc : Grid.copyCtor C g w.h with
    | ok u gs =>
      obtain ⟨g', h'⟩ := gs
      obtain ⟨e1, e2, e3⟩ := copyCtor_ext hc
      simp only [hc, World.ofCtor] at h1
      injection h1 with h1; injection h1 with h1 _
      subst h1
      simp only [World.step, World.withG, upd_self, e1]
    | throw e gs => obtain ⟨_, _⟩ := gs; simp only [hc, World.ofCtor] at h1; injection h1 with h1; injection h1 with _ h1; cases h1
    | ub u => simp only [hc, World.ofCtor] at h1; cases h1

example := C16_false demoL_WF demo_valid (demo_free (s := 2) (by decide)) demo_dims1 (by decide)

/-- C16, what does hold: dimensions, byte size and the size of the buffer are those of the source. -/
theorem C16_partial (hL : C.L.WF) {w : World V} (hV : Valid C dv w) {s t : Nat} (hs : w.g s = none) {d : Ext}
    (hd : DimsAre C w t d) (hd0 : d ≠ ⟨0, 0, 0⟩) :
    ∃ w' n, w.step C (.copy s t) = .ok (w', .unit) ∧ DimsAre C w' s d ∧ w.step C (.byteSize t) = .ok (w, .nat n) ∧
      w'.step C (.byteSize s) = .ok (w', .nat n) := by
  obtain ⟨a, hR⟩ := hV.refines hL
  obtain ⟨g, ht, rfl⟩ := hR.of_dims hd hd0
  have hsa := absent_of hL hR hs
  obtain ⟨w', out, a', h1, h2, h3⟩ := step_refines hL dv hR (.copy s t) ⟨hsa, g, ht⟩
  cases h2 with
  | copy _ _ g' hg' =>
    rw [ht] at hg'; cases hg'
    have hs' := upd_self a s (.grid { g with ext := none })
    obtain ⟨q, q1, q2⟩ := hR.grid ht
    obtain ⟨q', q1', q2'⟩ := h3.grid hs'
    obtain ⟨e, id, b, k1, k2, k3, k4, k5, _⟩ := q2.2
    obtain ⟨e', id', b', k1', k2', k3', k4', k5', _⟩ := q2'.2
    have : e' = e := by
      have k1'' : selectSizes C.tr g.dim = .ok e' := k1'
      rw [k1] at k1''; cases k1''; rfl
    subst this
    refine ⟨w', byteSizeOf C.L e', h1, dims_of h3 hs' rfl, ?_, ?_⟩
    · simp only [World.step, World.withG, q1, k5]
    · simp only [World.step, World.withG, q1', k5']

example := C16_partial demoL_WF demo_valid (demo_free (s := 2) (by decide)) demo_dims1 (by decide)

/-! ### C17: swap -/

/-- What the extents tell about the members of a grid. -/
theorem extents_fields {w : World V} {s : Nat} {e : Ext} (h : w.step C (.extents s) = .ok (w, .triple e)) :
    ∃ g, w.g s = some g ∧ g.ex = some e.x ∧ g.ey = some e.y ∧ g.ez = some e.z := by
  simp only [World.step, World.withG] at h
  split at h
  · cases h
  · rename_i g hg
    split at h
    · rename_i x y z h1 h2 h3
      injection h with h; injection h with _ h; injection h with h
      subst h
      exact ⟨g, hg, h1, h2, h3⟩
    · cases h

/-- What the byte size tells about the members of a grid. -/
theorem byteSize_field {w : World V} {s : Nat} {n : Nat} {g : Grid} (hg : w.g s = some g)
    (h : w.step C (.byteSize s) = .ok (w, .nat n)) : g.bs = some n := by
  simp only [World.step, World.withG, hg] at h
  split at h
  · rename_i m hm
    injection h with h; injection h with _ h; injection h with h
    rw [hm, h]
  · cases h

/-- C17 does not hold: dimensions in y and z stay. -/
theorem C17_false {w : World V} {s t : Nat} (hne : s ≠ t) {d d' : Ext} (hs : DimsAre C w s d) (ht : DimsAre C w t d') :
    ∃ w', w.step C (.swap s t) = .ok (w', .unit) ∧ DimsAre C w' s ⟨d'.x, d.y, d.z⟩ ∧ DimsAre C w' t ⟨d.x, d'.y, d'.z⟩ := by
  unfold DimsAre at hs ht
  simp only [World.step, World.withG] at hs ht
  split at hs
  · cases hs
  · rename_i g hg
    split at ht
    · cases ht
    · rename_i g' hg'
      injection hs with hs; injection hs with _ hs; injection hs with hs
      injection ht with ht; injection ht with _ ht; injection ht with ht
      subst hs ht
      refine ⟨⟨w.h, World.upd (World.upd w.g s (some (Grid.swap g g').1)) t (some (Grid.swap g g').2)⟩, ?_, ?_, ?_⟩
      · simp only [World.step, World.withG, hg, hg']
      · simp only [DimsAre, World.step, World.withG, upd_ne _ _ hne, upd_self]
        rfl
      · simp only [DimsAre, World.step, World.withG, upd_self]
        rfl

example := C17_false (by decide) demo_dims0 demo_dims1

/-- C17 does not hold of the reported extents either: only those in x are exchanged. -/
theorem C17_false_extents {w : World V} {s t : Nat} (hne : s ≠ t) {e e' : Ext} (hs : w.step C (.extents s) = .ok (w, .triple e))
    (ht : w.step C (.extents t) = .ok (w, .triple e')) :
    ∃ w', w.step C (.swap s t) = .ok (w', .unit) ∧ w'.step C (.extents s) = .ok (w', .triple ⟨e'.x, e.y, e.z⟩) ∧
      w'.step C (.extents t) = .ok (w', .triple ⟨e.x, e'.y, e'.z⟩) := by
  obtain ⟨g, hg, x1, y1, z1⟩ := extents_fields hs
  obtain ⟨g', hg', x2, y2, z2⟩ := extents_fields ht
  refine ⟨⟨w.h, World.upd (World.upd w.g s (some (Grid.swap g g').1)) t (some (Grid.swap g g').2)⟩, ?_, ?_, ?_⟩
  · simp only [World.step, World.withG, hg, hg']
  · simp only [World.step, World.withG, upd_ne _ _ hne, upd_self, Grid.swap, swapDimX, swapExtX, x2, y1, z1]
  · simp only [World.step, World.withG, upd_self, Grid.swap, swapDimX, swapExtX, x1, y2, z2]

/-- C17 for the reported extents and byte sizes: exchanged if the extents in y and z are the same. -/
theorem C17_extents_partial {w : World V} {s t : Nat} {e e' : Ext} (hs : w.step C (.extents s) = .ok (w, .triple e))
    (ht : w.step C (.extents t) = .ok (w, .triple e')) (hy : e.y = e'.y) (hz : e.z = e'.z) :
    ∃ w', w.step C (.swap s t) = .ok (w', .unit) ∧ w'.step C (.extents s) = .ok (w', .triple e') ∧
      w'.step C (.extents t) = .ok (w', .triple e) ∧
      (∀ n, w.step C (.byteSize s) = .ok (w, .nat n) → w'.step C (.byteSize t) = .ok (w', .nat n)) ∧
      (∀ n, w.step C (.byteSize t) = .ok (w, .nat n) → w'.step C (.byteSize s) = .ok (w', .nat n)) := by
  obtain ⟨g, hg, x1, y1, z1⟩ := extents_fields hs
  obtain ⟨g', hg', x2, y2, z2⟩ := extents_fields ht
  have he : (⟨e'.x, e.y, e.z⟩ : Ext) = e' := by rw [hy, hz]
  have he' : (⟨e.x, e'.y, e'.z⟩ : Ext) = e := by rw [← hy, ← hz]
  refine ⟨⟨w.h, World.upd (World.upd w.g s (some (Grid.swap g g').1)) t (some (Grid.swap g g').2)⟩, ?_, ?_, ?_, ?_, ?_⟩
  · simp only [World.step, World.withG, hg, hg']
  · by_cases hne : s = t
    · subst hne
      rw [hg] at hg'; cases hg'
      simp only [World.step, World.withG, upd_self, Grid.swap, swapDimX, swapExtX, x2, y2, z2]
    · simp only [World.step, World.withG, upd_ne _ _ hne, upd_self, Grid.swap, swapDimX, swapExtX, x2, y1, z1, he]
  · simp only [World.step, World.withG, upd_self, Grid.swap, swapDimX, swapExtX, x1, y2, z2, he']
  · intro n hn
    have := byteSize_field hg hn
    simp only [World.step, World.withG, upd_self, Grid.swap, swapDimX, swapExtX, this]
  · intro n hn
    have := byteSize_field hg' hn
    by_cases hne : s = t
    · subst hne
      rw [hg] at hg'; cases hg'
      simp only [World.step, World.withG, upd_self, Grid.swap, swapDimX, swapExtX, this]
    · simp only [World.step, World.withG, upd_ne _ _ hne, upd_self, Grid.swap, swapDimX, swapExtX, this]

/-- One `int` member. -/
def intC : Cfg Int := ⟨[⟨⟨4, true⟩, none, 0⟩], .custom [2, 4] [2, 4] [1], false⟩

/-- Two grids of different sizes. -/
def twoGrids (d d' : Ext) : World Int :=
  match World.init.run intC [.new 0 d, .new 1 d'] with
  | .ok (w, _) => w
  | .error _ => World.init

example := C17_false_extents (C := intC) (w := twoGrids ⟨2, 2, 1⟩ ⟨3, 4, 1⟩) (s := 0) (t := 1) (e := ⟨2, 2, 1⟩) (e' := ⟨4, 4, 1⟩)
  (by decide) rfl rfl

example := C17_extents_partial (C := intC) (w := twoGrids ⟨2, 3, 1⟩ ⟨3, 4, 1⟩) (s := 0) (t := 1) (e := ⟨2, 4, 1⟩) (e' := ⟨4, 4, 1⟩)
  rfl rfl rfl rfl

/-- C17: after swapping grids with different y dimensions, a `get` within the reported dimensions leaves the buffer. -/
theorem C17_false_unsafe :
    World.init.run intC [.new 0 ⟨2, 2, 1⟩, .new 1 ⟨2, 4, 1⟩, .swap 0 1, .get 1 0 3 0 [fun _ _ => 0]] = .error .oob := by
  rfl

example : World.init.run intC [.new 0 ⟨2, 2, 1⟩, .new 1 ⟨2, 4, 1⟩, .swap 0 1, .dims 1, .get 1 0 3 0 [fun _ _ => 0]] =
    .error .oob := rfl

/-- C17 for grids with the same y and z dimensions: dimensions and cells are exchanged. -/
theorem C17_partial (hL : C.L.WF) {w : World V} (hV : Valid C dv w) {s t : Nat} {d d' : Ext} (hs : DimsAre C w s d)
    (ht : DimsAre C w t d') (hd0 : d ≠ ⟨0, 0, 0⟩) (hd0' : d' ≠ ⟨0, 0, 0⟩) (hy : d.y = d'.y) (hz : d.z = d'.z) :
    ∃ w', w.step C (.swap s t) = .ok (w', .unit) ∧ DimsAre C w' s d' ∧ DimsAre C w' t d ∧
      (∀ x y z, InDim d' x y z → ∃ c, CellIs C w t x y z c ∧ CellIs C w' s x y z c) ∧
      (∀ x y z, InDim d x y z → ∃ c, CellIs C w s x y z c ∧ CellIs C w' t x y z c) := by
  obtain ⟨a, hR⟩ := hV.refines hL
  obtain ⟨g, hgs, rfl⟩ := hR.of_dims hs hd0
  obtain ⟨g', hgt, rfl⟩ := hR.of_dims ht hd0'
  obtain ⟨w', out, a', h1, h2, h3⟩ := step_refines hL dv hR (.swap s t) ⟨g, g', hgs, hgt, hy, hz⟩
  cases h2 with
  | swap _ _ q q' hq hq' =>
    rw [hgs] at hq; cases hq
    rw [hgt] at hq'; cases hq'
    have ht' := upd_self (World.upd a s (.grid { g' with ext := Spec.swapExt g.ext g'.ext })) t
      (.grid { g with ext := Spec.swapExt g'.ext g.ext })
    obtain ⟨gn, hs', hgd, hgc⟩ : ∃ gn, (World.upd (World.upd a s (.grid { g' with ext := Spec.swapExt g.ext g'.ext })) t
      (.grid { g with ext := Spec.swapExt g'.ext g.ext })) s = .grid gn ∧ gn.dim = g'.dim ∧ gn.cells = g'.cells := by
      by_cases hne : s = t
      · subst hne
        rw [hgs] at hgt; cases hgt
        exact ⟨_, upd_self _ _ _, rfl, rfl⟩
      · exact ⟨{ g' with ext := Spec.swapExt g.ext g'.ext }, by rw [upd_ne _ _ hne, upd_self], rfl, rfl⟩
    refine ⟨w', h1, dims_of h3 hs' hgd, dims_of h3 ht' rfl, fun x y z hin => ?_, fun x y z hin => ?_⟩
    · refine ⟨_, hR.cellIs hL hgt hin, ?_⟩
      have := h3.cellIs hL hs' (x := x) (y := y) (z := z) (by rw [hgd]; exact hin)
      rwa [hgc] at this
    · exact ⟨_, hR.cellIs hL hgs hin, h3.cellIs hL ht' (x := x) (y := y) (z := z) hin⟩

example := C17_partial demoL_WF demo_valid demo_dims0 demo_dims1 (by decide) (by decide) rfl rfl

/-! ### C18, C19: resize -/

/-- C18 does not hold: after a failing `resize` of a grid with cells, the grid reports the rejected dimensions, its data
    pointer refers to memory which has been freed, and destroying it terminates the program. -/
theorem C18_false (hL : C.L.WF) {w : World V} (hV : Valid C dv w) {s : Nat} {d0 d : Ext} (hd : DimsAre C w s d0)
    (hd0 : d0 ≠ ⟨0, 0, 0⟩) {x : Exc} (he : selectSizes C.tr d = .error x) :
    ∃ w', w.step C (.resize s d) = .ok (w', .threw x) ∧ DimsAre C w' s d ∧
      (∃ g id, w'.g s = some g ∧ g.data = some id ∧ w'.h.blk id = none) ∧
      w'.step C (.destroy s) = .error .terminate := by
  obtain ⟨a, hR⟩ := hV.refines hL
  obtain ⟨ag, hgs, rfl⟩ := hR.of_dims hd hd0
  obtain ⟨g, q1, q2⟩ := hR.grid hgs
  obtain ⟨e, id, b, k1, k2, k3, k4, k5, _⟩ := q2.2
  have hne : ¬ (g.dim.x = d.x ∧ g.dim.y = d.y ∧ g.dim.z = d.z) := by
    rintro ⟨h1, h2, h3⟩
    have : g.dim = d := by cases hgd : g.dim; cases d; simp_all
    rw [← this, q2.1, k1] at he; cases he
  obtain ⟨id', h', p1, p2, _, p4, _⟩ := q2.destroy hL
  rw [k2] at p1; cases p1
  have hstep : w.step C (.resize s d) = .ok (⟨h', World.upd w.g s (some { g with dim := d })⟩, .threw x) := by
    simp only [World.step, World.withG, q1, Grid.resize, if_neg hne, p2, Res.withGrid, Res.bind, he, World.ofGS]
  refine ⟨_, hstep, ?_, ⟨_, id, upd_self _ _ _, k2, p4⟩, ?_⟩
  · simp only [DimsAre, World.step, World.withG, upd_self]
  · simp only [World.step, World.withG, upd_self, Grid.dtor, Grid.destroyAndDeallocate, k2, Grid.callbackMut, he, Res.bind]

example := C18_false demoL_WF demo_valid demo_dims0 (d := ⟨9, 1, 1⟩) (by decide) rfl

/-- C18 for a default constructed grid: a failing `resize` leaves a grid without memory which can be destroyed. -/
theorem C18_blank_partial {w : World V} {s : Nat} {g : Grid} (hs : w.g s = some g) (hdata : g.data = none) {d : Ext}
    (hne : g.dim ≠ d) {x : Exc} (he : selectSizes C.tr d = .error x) :
    ∃ w', w.step C (.resize s d) = .ok (w', .threw x) ∧ w'.h = w.h ∧
      (∃ g', w'.g s = some g' ∧ g'.data = none) ∧ (∃ w'', w'.step C (.destroy s) = .ok (w'', .unit) ∧ w''.h = w.h) := by
  have hne' : ¬ (g.dim.x = d.x ∧ g.dim.y = d.y ∧ g.dim.z = d.z) := by
    rintro ⟨h1, h2, h3⟩
    exact hne (by cases hgd : g.dim; cases d; simp_all)
  have hstep : w.step C (.resize s d) = .ok (⟨w.h, World.upd w.g s (some { g with dim := d })⟩, .threw x) := by
    simp only [World.step, World.withG, hs, Grid.resize, if_neg hne', Grid.destroyAndDeallocate, hdata, Res.withGrid,
      Res.bind, he, World.ofGS]
  refine ⟨_, hstep, rfl, ⟨_, upd_self _ _ _, hdata⟩, ⟨w.h, World.upd (World.upd w.g s (some { g with dim := d })) s none⟩, ?_,
    rfl⟩
  simp only [World.step, World.withG, upd_self, Grid.dtor, Grid.destroyAndDeallocate, hdata]

example := C18_blank_partial (C := demoC) (w := ⟨demoW.h, fun _ => some ⟨⟨0, 0, 0⟩, none, none, none, none, none⟩⟩) (s := 0) rfl rfl
  (d := ⟨9, 1, 1⟩) (by decide) rfl

/-- C18 for construction: a constructor that throws leaves everything as it was. -/
theorem C18_construct_partial {w : World V} {s : Nat} (hs : w.g s = none) {d : Ext} (hd : d ≠ ⟨0, 0, 0⟩) {x : Exc}
    (he : selectSizes C.tr d = .error x) : w.step C (.new s d) = .ok (w, .threw x) := by
  have hne' : ¬ (0 = d.x ∧ 0 = d.y ∧ 0 = d.z) := by
    rintro ⟨h1, h2, h3⟩
    exact hd (by cases d; simp_all)
  simp only [World.step, hs, Grid.new, Grid.resize, if_neg hne', Grid.destroyAndDeallocate, Res.withGrid, Res.bind, he,
    World.ofCtor]

example := C18_construct_partial (C := demoC) (demo_free (s := 2) (by decide)) (d := ⟨9, 1, 1⟩) (by decide) rfl

/-- C19, part 1: `resize` to the current dimensions changes nothing at all. -/
theorem C19_same {w : World V} {s : Nat} {d : Ext} (hd : DimsAre C w s d) : w.step C (.resize s d) = .ok (w, .unit) := by
  unfold DimsAre at hd
  simp only [World.step, World.withG] at hd ⊢
  cases hg : w.g s with
  | none => rw [hg] at hd; cases hd
  | some g =>
    rw [hg] at hd
    injection hd with hd; injection hd with _ hd; injection hd with hd
    subst hd
    simp only [Grid.resize, and_self, if_true, World.ofGS]
    rw [← hg, upd_id]

example := C19_same demo_dims0

/-! ### C08, C15: default constructed grids -/

/-- C08 does not hold for default construction (dimensions 0, 0, 0): the extents and the byte size are never written. -/
theorem C08_false_default {w : World V} {s : Nat} (hs : w.g s = none) :
    ∃ w', w.step C (.new s ⟨0, 0, 0⟩) = .ok (w', .unit) ∧ DimsAre C w' s ⟨0, 0, 0⟩ ∧
      w'.step C (.extents s) = .error .uninitField ∧ w'.step C (.byteSize s) = .error .uninitField := by
  refine ⟨⟨w.h, World.upd w.g s (some ⟨⟨0, 0, 0⟩, none, none, none, none, none⟩)⟩, ?_, ?_, ?_, ?_⟩
  · simp [World.step, hs, Grid.new, Grid.resize, World.ofCtor]
  all_goals simp only [DimsAre, World.step, World.withG, upd_self]

example := C08_false_default (C := demoC) (demo_free (s := 2) (by decide))

/-- C15 does not hold for default constructed grids: copying one reads its uninitialised byte size. -/
theorem C15_false_copy {w : World V} {s t : Nat} (hne : s ≠ t) (hs : w.g s = none) (ht : w.g t = none) :
    ∃ w', w.step C (.new t ⟨0, 0, 0⟩) = .ok (w', .unit) ∧ w'.step C (.copy s t) = .error .uninitField := by
  refine ⟨⟨w.h, World.upd w.g t (some ⟨⟨0, 0, 0⟩, none, none, none, none, none⟩)⟩, ?_, ?_⟩
  · simp [World.step, ht, Grid.new, Grid.resize, World.ofCtor]
  · simp only [World.step, World.withG, upd_self, upd_ne _ _ hne, hs, Grid.copyCtor, World.ofCtor]

example := C15_false_copy (C := demoC) (by decide) (demo_free (s := 2) (by decide)) (demo_free (s := 3) (by decide))

/-- `soa_grid<CELL> a(d), b;` -/
theorem with_empty (hL : C.L.WF) (dv : V) {d e : Ext} (hd : d ≠ ⟨0, 0, 0⟩) (he : selectSizes C.tr d = .ok e) :
    ∃ w, Valid C dv w ∧ DimsAre C w 0 d ∧ DimsAre C w 1 ⟨0, 0, 0⟩ ∧
      ∃ outs, World.init.run C [.new 0 d, .new 1 ⟨0, 0, 0⟩] = .ok (w, outs) := by
  have hleg : Spec.Legal C dv Spec.start [.new 0 d, .new 1 ⟨0, 0, 0⟩] := by
    refine ⟨rfl, fun a' out hp => ⟨?_, fun _ _ _ => trivial⟩⟩
    cases hp with
    | newBlank => rfl
    | new => rfl
    | newFail => rfl
  obtain ⟨w, outs, a, h1, h2, hR, _⟩ :=
    run_refines (dv := dv) hL R.init [.new 0 d, .new 1 ⟨0, 0, 0⟩] [] (by rwa [List.append_nil])
  have hrun : ∃ outs, World.init.run C [.new 0 d, .new 1 ⟨0, 0, 0⟩] = .ok (w, outs) := ⟨outs, h1⟩
  refine ⟨w, ⟨_, outs, hleg, h1⟩, ?_⟩
  cases h2 with
  | cons p1 h2 =>
    cases h2 with
    | cons p2 h2 =>
      cases h2
      cases p1 with
      | newBlank => exact absurd rfl hd
      | newFail _ _ x _ hx => rw [he] at hx; cases hx
      | new _ _ e' _ he' =>
        cases p2 with
        | new _ _ _ h0 _ => exact absurd rfl h0
        | newFail _ _ _ h0 _ => exact absurd rfl h0
        | newBlank =>
          refine ⟨dims_of hR (by rw [upd_ne _ _ (by decide)]; exact upd_self _ _ _) rfl, ?_, hrun⟩
          obtain ⟨g, q1, q2, _⟩ := hR.blank (upd_self _ _ _)
          simp only [DimsAre, World.step, World.withG, q1, q2]

/-- Assigning an empty grid: throws if the traits of the cell do not accept the dimensions 0, 0, 0. An empty target does not
    change; otherwise the target reports dimensions 0, 0, 0, refers to freed memory and cannot be destroyed. -/
theorem C15_false_assign (hL : C.L.WF) {w : World V} (hV : Valid C dv w) {s t : Nat} {d : Ext} (hs : DimsAre C w s d)
    (ht : DimsAre C w t ⟨0, 0, 0⟩) {x : Exc} (hx : selectSizes C.tr ⟨0, 0, 0⟩ = .error x) :
    (d = ⟨0, 0, 0⟩ → w.step C (.assign s t) = .ok (w, .threw x)) ∧
    (d ≠ ⟨0, 0, 0⟩ → ∃ w', w.step C (.assign s t) = .ok (w', .threw x) ∧ DimsAre C w' s ⟨0, 0, 0⟩ ∧
      (∃ g id, w'.g s = some g ∧ g.data = some id ∧ w'.h.blk id = none) ∧
      w'.step C (.destroy s) = .error .terminate) := by
  obtain ⟨og, ho1, ho2⟩ : ∃ og, w.g t = some og ∧ og.dim = ⟨0, 0, 0⟩ := by
    unfold DimsAre at ht
    simp only [World.step, World.withG] at ht
    cases hg : w.g t with
    | none => rw [hg] at ht; cases ht
    | some g =>
      rw [hg] at ht
      injection ht with ht; injection ht with _ ht; injection ht with ht
      exact ⟨g, rfl, ht⟩
  constructor
  · rintro rfl
    have hsame := C19_same hs
    obtain ⟨g, hg1, hg2⟩ : ∃ g, w.g s = some g ∧ g.dim = ⟨0, 0, 0⟩ := by
      unfold DimsAre at hs
      simp only [World.step, World.withG] at hs
      cases hg : w.g s with
      | none => rw [hg] at hs; cases hs
      | some g =>
        rw [hg] at hs
        injection hs with hs; injection hs with _ hs; injection hs with hs
        exact ⟨g, rfl, hs⟩
    have hr := resize_same (C := C) (h := w.h) (g := g) (d := og.dim) (by rw [hg2, ho2])
    have hc : g.copyIn C og w.h = .throw x (g, w.h) := by
      unfold Grid.copyIn Grid.dualCallback
      rw [ho2, hg2, hx]
      cases C.asym <;> simp [Res.withGrid]
    simp only [World.step, World.withG, hg1, ho1, Grid.assign, hr, Res.bind, hc, World.ofGS]
    rw [← hg1, upd_id]
  · intro hd0
    obtain ⟨w', h1, h2, h3, h4⟩ := C18_false hL hV hs hd0 hx
    refine ⟨w', ?_, h2, h3, h4⟩
    simp only [World.step, World.withG] at h1 ⊢
    cases hg : w.g s with
    | none => rw [hg] at h1; cases h1
    | some g =>
      rw [hg] at h1
      simp only [ho1, Grid.assign, ho2] at h1 ⊢
      cases hr : g.resize C ⟨0, 0, 0⟩ w.h with
      | ok u p => rw [hr] at h1; obtain ⟨g1, h1'⟩ := p; simp [World.ofGS] at h1
      | throw e p => rw [hr] at h1; exact h1
      | ub u => rw [hr] at h1; simp [World.ofGS] at h1

/-- Cells without custom sizes do not accept the dimensions 0, 0, 0, hence `a = soa_grid<CELL>()` always throws. -/
theorem C15_false_default_sizes (hL : C.L.WF) (htr : C.tr = .dflt) {w : World V} (hV : Valid C dv w) {s t : Nat} {d : Ext}
    (hs : DimsAre C w s d) (ht : DimsAre C w t ⟨0, 0, 0⟩) :
    ∃ w', w.step C (.assign s t) = .ok (w', .threw (.outOfRange "expected 1D grid, but y != 1")) := by
  have hx : selectSizes C.tr ⟨0, 0, 0⟩ = .error (.outOfRange "expected 1D grid, but y != 1") := by rw [htr]; rfl
  obtain ⟨h1, h2⟩ := C15_false_assign hL hV hs ht hx
  by_cases hd : d = ⟨0, 0, 0⟩
  · exact ⟨w, h1 hd⟩
  · obtain ⟨w', h, _⟩ := h2 hd; exact ⟨w', h⟩

/-- Both cases of `C15_false_assign` occur. -/
example : ∃ (w w' : World Int) (x : Exc), DimsAre ⟨demoL, .dflt, false⟩ w 0 ⟨5, 1, 1⟩ ∧
    w.step ⟨demoL, .dflt, false⟩ (.assign 0 1) = .ok (w', .threw x) ∧
    w.step ⟨demoL, .dflt, false⟩ (.assign 1 1) = .ok (w, .threw x) := by
  obtain ⟨w, hV, h0, h1, _⟩ := with_empty (C := ⟨demoL, .dflt, false⟩) demoL_WF (0 : Int) (d := ⟨5, 1, 1⟩) (by decide) rfl
  obtain ⟨w', h, _⟩ := (C15_false_assign demoL_WF hV h0 h1 rfl).2 (by decide)
  exact ⟨w, w', _, h0, h, (C15_false_assign demoL_WF hV h1 h1 rfl).1 rfl⟩

example := fun (w : World Int) hV h0 h1 =>
  C15_false_default_sizes (C := ⟨demoL, .dflt, false⟩) (dv := 0) demoL_WF rfl (w := w) (s := 0) (t := 1) (d := ⟨5, 1, 1⟩) hV h0 h1

/-- C14 does not hold for programs which assign a default constructed grid: if the traits do not accept the dimensions 0, 0, 0
    (as is the case for cells without custom sizes) then `{ soa_grid<CELL> a(d), b; a = b; }` terminates. -/
theorem C14_false (hL : C.L.WF) {d e : Ext} (hd : d ≠ ⟨0, 0, 0⟩) (he : selectSizes C.tr d = .ok e) {x : Exc}
    (hx : selectSizes C.tr ⟨0, 0, 0⟩ = .error x) (dv : V) :
    World.init.run C [.new 0 d, .new 1 ⟨0, 0, 0⟩, .assign 0 1, .destroy 0] = (.error .terminate : Except UB (World V × List (Out V))) := by
  obtain ⟨w, hV, h0, h1, outs, hrun⟩ := with_empty hL dv hd he
  obtain ⟨w', k1, _, _, k4⟩ := (C15_false_assign hL hV h0 h1 hx).2 hd
  simp only [World.run] at hrun ⊢
  split at hrun
  · cases hrun
  · rename_i w1 o1 e1
    split at hrun
    · cases hrun
    · rename_i w2 o2 e2
      split at e2
      · cases e2
      · rename_i w3 o3 e3
        cases e2; cases hrun
        simp only [e3, k1, k4]

example := C14_false (C := ⟨demoL, .dflt, false⟩) demoL_WF (d := ⟨5, 1, 1⟩) (by decide) rfl rfl 0

/-- C15, assignment of an empty grid which the traits accept: the target becomes empty, the source stays so. -/
theorem C15_assign_empty_partial (hL : C.L.WF) {w : World V} (hV : Valid C dv w) {s t : Nat} {d : Ext} (hs : DimsAre C w s d)
    (ht : DimsAre C w t ⟨0, 0, 0⟩) {e : Ext} (he : selectSizes C.tr ⟨0, 0, 0⟩ = .ok e) :
    ∃ w', w.step C (.assign s t) = .ok (w', .unit) ∧ DimsAre C w' s ⟨0, 0, 0⟩ ∧ DimsAre C w' t ⟨0, 0, 0⟩ := by
  obtain ⟨a, hR⟩ := hV.refines hL
  rcases hR.blankOrGrid_dims ht with ⟨hb, _⟩ | ⟨o, ho, hod⟩
  · obtain ⟨og, ho1, ho2, ho3⟩ := hR.blank hb
    -- resize, then nothing is copied
    have hcopy : ∀ (g : Grid) (h : Heap V), g.dim = ⟨0, 0, 0⟩ → (∀ id, g.data = some id → ∃ b, h.blk id = some b) →
        ∃ h', g.copyIn C og h = .ok () (g, h') := by
      intro g h hg hd
      unfold Grid.copyIn Grid.dualCallback
      rw [ho2, hg, he]
      simp only [ho3, Option.map_none]
      cases hdd : g.data with
      | none => cases C.asym <;> simp [onBuffer, copyFunctor, loopM, Res.withGrid]
      | some id =>
        obtain ⟨b, hb'⟩ := hd id hdd
        cases C.asym <;> simp [onBuffer, copyFunctor, loopM, Res.withGrid, hb']
    rcases hR.blankOrGrid_dims hs with ⟨hbs, rfl⟩ | ⟨ag, has, rfl⟩
    · obtain ⟨g, hg1, hg2, hg3⟩ := hR.blank hbs
      obtain ⟨h', hc⟩ := hcopy g w.h hg2 (fun id h => by rw [hg3] at h; cases h)
      have hr := resize_same (C := C) (h := w.h) (g := g) (d := og.dim) (by rw [hg2, ho2])
      refine ⟨⟨h', World.upd w.g s (some g)⟩, ?_, ?_, ?_⟩
      · simp only [World.step, World.withG, hg1, ho1, Grid.assign, hr, Res.bind, hc, World.ofGS]
      · simp only [DimsAre, World.step, World.withG, upd_self, hg2]
      · rw [← hg1, upd_id]; simp only [DimsAre, World.step, World.withG, ho1, ho2]
    · obtain ⟨g, hg1, hg2⟩ := hR.grid has
      have hts : t ≠ s := by rintro rfl; rw [hb] at has; cases has
      by_cases hz : ag.dim = ⟨0, 0, 0⟩
      · obtain ⟨h', hc⟩ := hcopy g w.h (hg2.1.trans hz) (fun id h => hR.data_live hg1 h)
        have hr := resize_same (C := C) (h := w.h) (g := g) (d := og.dim) (by rw [hg2.1, hz, ho2])
        refine ⟨⟨h', World.upd w.g s (some g)⟩, ?_, ?_, ?_⟩
        · simp only [World.step, World.withG, hg1, ho1, Grid.assign, hr, Res.bind, hc, World.ofGS]
        · simp only [DimsAre, World.step, World.withG, upd_self, hg2.1, hz]
        · simp only [DimsAre, World.step, World.withG, upd_ne _ _ hts, ho1, ho2]
      · obtain ⟨g', h', k1, k2, k3, k4⟩ := hg2.resize hL hz he dv
        obtain ⟨h'', hc⟩ := hcopy g' h' k2.1 (fun id h => by
          obtain ⟨_, e', id', b, _, q2, q3, _⟩ := k2
          rw [q2] at h; cases h; exact ⟨b, q3⟩)
        refine ⟨⟨h'', World.upd w.g s (some g')⟩, ?_, ?_, ?_⟩
        · simp only [World.step, World.withG, hg1, ho1, Grid.assign, ho2, k1, Res.bind, hc, World.ofGS]
        · simp only [DimsAre, World.step, World.withG, upd_self, k2.1]
        · simp only [DimsAre, World.step, World.withG, upd_ne _ _ hts, ho1, ho2]
  · obtain ⟨w', out, a', h1, h2, h3⟩ := step_refines hL dv hR (.assign s t) ⟨present_of hR hs, o, ho⟩
    cases h2 with
    | assignBlank _ _ _ _ hsb _ =>
      obtain ⟨g, hg1, hg2, _⟩ := h3.blank hsb
      refine ⟨w', h1, ?_, ?_⟩
      · simp only [DimsAre, World.step, World.withG, hg1, hg2]
      · have := h3.dims ho; rwa [hod] at this
    | assign _ _ g' ext hg' hext =>
      rw [ho] at hg'; cases hg'
      have hs' := upd_self a s (.grid { o with ext := ext })
      refine ⟨w', h1, dims_of h3 hs' hod, ?_⟩
      by_cases hne : t = s
      · subst hne; exact dims_of h3 hs' hod
      · exact dims_of h3 (by rw [upd_ne _ _ hne, ho]) hod

example : ∃ (w w' : World Int), DimsAre demoC w 0 ⟨3, 2, 2⟩ ∧ w.step demoC (.assign 0 1) = .ok (w', .unit) ∧
    DimsAre demoC w' 0 ⟨0, 0, 0⟩ := by
  obtain ⟨w, hV, h0, h1, _⟩ := with_empty (C := demoC) demoL_WF (0 : Int) (d := ⟨3, 2, 2⟩) (by decide) rfl
  obtain ⟨w', h, k, _⟩ := C15_assign_empty_partial demoL_WF hV h0 h1 rfl
  exact ⟨w, w', h0, h, k⟩


/-- C19, part 2: `resize` to other accepted dimensions yields default constructed cells only. -/
theorem C19_reset (hL : C.L.WF) {w : World V} (hV : Valid C dv w) {s : Nat} {d0 d e : Ext} (hd : DimsAre C w s d0)
    (hne : d ≠ d0) (he : selectSizes C.tr d = .ok e) :
    ∃ w', w.step C (.resize s d) = .ok (w', .unit) ∧ DimsAre C w' s d ∧
      ∀ x y z, InDim d x y z → ∃ c, CellIs C w' s x y z c ∧
        ∀ (r : Nat) (m : Member V) (k : Nat), C.L[r]? = some m → k < m.elems → c r k = m.dflt := by
  obtain ⟨a, hR⟩ := hV.refines hL
  have hpre : Spec.Pre C a (.resize s d) := by
    have := present_of hR hd
    simp only [Spec.Pre]
    cases ha : a s with
    | absent => contradiction
    | blank => exact .inr ⟨e, he⟩
    | grid _ => exact ⟨e, he⟩
  obtain ⟨w', out, a', h1, h2, h3⟩ := step_refines hL dv hR (.resize s d) hpre
  cases h2 with
  | resizeBlank _ hb =>
    rcases hR.blankOrGrid_dims hd with ⟨_, rfl⟩ | ⟨gt, hgt, _⟩
    · exact absurd rfl hne
    · rw [hb] at hgt; cases hgt
  | resizeSame _ g hg =>
    rcases hR.blankOrGrid_dims hd with ⟨hb, _⟩ | ⟨gt, hgt, rfl⟩
    · rw [hb] at hg; cases hg
    · rw [hg] at hgt; cases hgt; exact absurd rfl hne
  | resize _ _ e' _ _ _ he' =>
    have hs' := upd_self a s (.grid ⟨d, some e', Spec.dfltCells C.L dv⟩)
    refine ⟨w', h1, dims_of h3 hs' rfl, fun x y z hin => ⟨_, h3.cellIs hL hs' (x := x) (y := y) (z := z) hin, ?_⟩⟩
    intro r m k hm hk
    show dfltCell C.L dv r k = m.dflt
    simp [dfltCell, hm]

example := C19_reset demoL_WF demo_valid demo_dims0 (d := ⟨7, 3, 2⟩) (by decide) rfl

/-! ### C20: lifecycle

In the model constructing over a live object, destroying or using something that is not alive, freeing with a wrong size and
freeing twice are undefined behaviour; programs that respect the contracts never do this (`C14_history_partial`). -/

/-- C20: at any time the heap consists of the buffers of the existing grids, one each; in all freed buffers no object was
    left alive. Once all grids have been destroyed all memory has been freed. -/
theorem C20_lifecycle_partial (hL : C.L.WF) {w : World V} (hV : Valid C dv w) :
    (∀ b ∈ w.h.freed, ∀ i, i < b.size → (b.get i).nonTriv = false) ∧
    (∀ id b, w.h.blk id = some b → ∃ s g, w.g s = some g ∧ g.data = some id) ∧
    (∀ s g id, w.g s = some g → g.data = some id → (∃ b, w.h.blk id = some b) ∧
      ∀ s' g', w.g s' = some g' → g'.data = some id → s' = s) ∧
    ((∀ s, w.g s = none) → ∀ id, w.h.blk id = none) := by
  obtain ⟨a, hR⟩ := hV.refines hL
  refine ⟨hR.clean, hR.live, fun s g id hg hid => ⟨hR.data_live hg hid, fun s' g' hg' hid' => ?_⟩, ?_⟩
  · exact hR.own s' s g' g id hg' hg hid' hid
  · intro h id
    cases hb : w.h.blk id with
    | none => rfl
    | some b =>
      obtain ⟨s, g, hg, _⟩ := hR.live id b hb
      rw [h s] at hg; cases hg

example := C20_lifecycle_partial demoL_WF demo_valid

/-- C20, which objects are alive: all members of in-range cells can be read; in the padding cells of the extents there is no
    live object with a non-trivial type. -/
theorem C20_alive_partial (hL : C.L.WF) {w : World V} (hV : Valid C dv w) {s : Nat} {g : Grid} (hg : w.g s = some g) {id : Nat}
    (hid : g.data = some id) :
    ∃ e b, selectSizes C.tr g.dim = .ok e ∧ w.h.blk id = some b ∧
      ∀ (r : Nat) (m : Member V) (k x y z : Nat), C.L[r]? = some m → k < m.elems → InDim e x y z →
        (InDim g.dim x y z → ∃ v, b.read ((accAt e (genIndex e x y z)).userRef C.L r m k) m.ty = .ok v) ∧
        (¬ InDim g.dim x y z → b.NoNT ((accAt e (genIndex e x y z)).userRef C.L r m k).toNat m.ty.size) := by
  obtain ⟨a, hR⟩ := hV.refines hL
  have hslot := hR.slots s
  cases ha : a s with
  | absent => rw [ha, hg] at hslot; cases hslot
  | blank =>
    rw [ha, hg] at hslot
    obtain ⟨g', h1, _, h2⟩ := hslot
    cases h1; rw [hid] at h2; cases h2
  | grid ag =>
    obtain ⟨g', q1, q2⟩ := hR.grid ha
    rw [hg] at q1; cases q1
    obtain ⟨q3, e, id', b, k1, k2, k3, k4, k5, k6, _⟩ := q2
    rw [hid] at k2; cases k2
    have hfit := selectSizes_fits k1
    refine ⟨e, b, by rw [q3]; exact k1, k3, ?_⟩
    intro r m k x y z hm hk hin
    have hi := lin_lt hin.1 hin.2.1 hin.2.2
    have haddr := userRef_slot hL (accAt_At e (lin e x y z)) hm hk
    rw [genIndex_lin]
    rw [show (accAt e ((lin e x y z : Nat) : Int)).userRef C.L r m k = _ from haddr]
    have hbox : InBox ag.dim e (lin e x y z) ↔ InDim g.dim x y z := by
      rw [inBox_iff hfit, q3, unX_lin hin.1, unY_lin hin.1 hin.2.1, unZ_lin hin.1 hin.2.1]; rfl
    constructor
    · intro h
      have := gridCont_in (cells := ag.cells) hfit (r := r) (k := k) (hbox.2 h)
      exact ⟨_, k6.read hL hm hk hi this⟩
    · intro h
      have := gridCont_out (cells := ag.cells) hfit (r := r) (k := k) (fun h' => h (hbox.1 h'))
      have hn := k6.hnone r m k _ hm hk hi this
      rw [Int.toNat_natCast]; exact hn

/-- The hypotheses are met by the demo program. -/
example : ∃ g id, demoW.g 0 = some g ∧ g.data = some id := by
  obtain ⟨a, cells, hR, h0, _⟩ := demo_abs
  obtain ⟨g, h1, _, e, id, b, _, h2, _⟩ := hR.grid h0
  exact ⟨g, id, h1, h2⟩

example : ∃ g id, demoW.g 0 = some g ∧ g.data = some id := by
  obtain ⟨e, n, g, id, b, _, _, _, _, _, _, h1, h2, _⟩ := C08_byte_size demoL_WF demo_valid demo_dims0 (by decide)
  exact ⟨g, id, h1, h2⟩

/-! ### C21: dual callback -/

/-- C21: symmetric dual callback (the default). For equal dimensions the functor runs with the same extents for both
    grids; otherwise the call throws, whatever the functor (`f`) is. Missing: dimensions which the traits reject
    (`C21_false`); of all grids with cells the dimensions are accepted (`C21_same_extents`). -/
theorem C21_dual_callback_partial {α : Type} (hsym : C.asym = false) (g other : Grid) (f : Ext → Ext → Heap V → Res (Heap V) α)
    (h : Heap V) :
    (∀ e, g.dim = other.dim → selectSizes C.tr g.dim = .ok e → g.dualCallback C other f h = f e e h) ∧
    (g.dim ≠ other.dim →
      g.dualCallback C other f h = .throw (.invalidArgument "grid dimensions of both grids must match") h) := by
  constructor
  · intro e hd he
    simp only [Grid.dualCallback, hsym, Bool.false_eq_true, if_false, hd, ne_eq, not_true_eq_false, or_self]
    rw [← hd, he]
  · intro hne
    have : g.dim.x ≠ other.dim.x ∨ g.dim.y ≠ other.dim.y ∨ g.dim.z ≠ other.dim.z := by
      by_contra hc
      simp only [not_or, ne_eq, not_not] at hc
      apply hne
      cases hg : g.dim; cases ho : other.dim; simp_all
    simp only [Grid.dualCallback, hsym, Bool.false_eq_true, if_false, this, if_true]

example := C21_dual_callback_partial (C := demoC) rfl ⟨⟨3, 2, 2⟩, none, none, none, none, none⟩ ⟨⟨3, 2, 1⟩, none, none, none, none, none⟩
  (fun e e' h => .ok (e, e') h) Heap.empty

/-- C21 does not hold for empty grids: if the traits reject the dimensions 0, 0, 0 (as is the case for cells without custom
    sizes) then the functor does not run although both grids have equal dimensions. -/
theorem C21_false {α : Type} (hsym : C.asym = false) {x : Exc} (hx : selectSizes C.tr ⟨0, 0, 0⟩ = .error x) {w : World V}
    {s t : Nat} {g other : Grid} (hg : w.g s = some g) (ho : w.g t = some other) (hs : DimsAre C w s ⟨0, 0, 0⟩)
    (ht : DimsAre C w t ⟨0, 0, 0⟩) (f : Ext → Ext → Heap V → Res (Heap V) α) :
    g.dualCallback C other f w.h = .throw x w.h := by
  simp only [DimsAre, World.step, World.withG, hg, ho, Except.ok.injEq, Prod.mk.injEq, Out.triple.injEq, true_and] at hs ht
  simp only [Grid.dualCallback, hsym, hs, ht, Bool.false_eq_true, if_false, ne_eq, not_true_eq_false, or_self, hx]

example : ∃ w : World Int, ∃ g other : Grid, w.g 1 = some g ∧ w.g 1 = some other ∧
    g.dualCallback ⟨demoL, .dflt, false⟩ other (fun e _ h => .ok e h) w.h =
      .throw (.outOfRange "expected 1D grid, but y != 1") w.h := by
  obtain ⟨w, _, _, h1, _⟩ := with_empty (C := ⟨demoL, .dflt, false⟩) demoL_WF (0 : Int) (d := ⟨5, 1, 1⟩) (by decide) rfl
  cases hg : w.g 1 with
  | none => simp [DimsAre, World.step, World.withG, hg] at h1
  | some g => exact ⟨w, g, g, hg, hg, C21_false rfl rfl hg hg h1 h1 _⟩

/-- C21: at any time, two existing grids with equal dimensions have buffers of the size for the common extents, so that a
    dual callback can access all their cells. -/
theorem C21_same_extents (hL : C.L.WF) {w : World V} (hV : Valid C dv w) {s t : Nat} {d : Ext} (hs : DimsAre C w s d)
    (ht : DimsAre C w t d) (hd0 : d ≠ ⟨0, 0, 0⟩) :
    ∃ e gs gt ids idt bs bt, selectSizes C.tr d = .ok e ∧ w.g s = some gs ∧ w.g t = some gt ∧ gs.data = some ids ∧
      gt.data = some idt ∧ w.h.blk ids = some bs ∧ w.h.blk idt = some bt ∧
      bs.size = e.x * e.y * e.z * Spec.structBytes C.L ∧ bt.size = bs.size := by
  obtain ⟨e, n, gs, ids, bs, h1, _, _, _, h2, _, h3, h4, h5, h6⟩ := C08_byte_size hL hV hs hd0
  obtain ⟨e', n', gt, idt, bt, k1, _, _, _, k2, _, k3, k4, k5, k6⟩ := C08_byte_size hL hV ht hd0
  rw [h1] at k1; cases k1
  exact ⟨e, gs, gt, ids, idt, bs, bt, h1, h3, k3, h4, k4, h5, k5, by rw [h6, h2], by rw [h6, k6, h2, k2]⟩

example := C21_same_extents demoL_WF demo_valid demo_dims0 demo_dims0 (by decide)

/-! ### C22: order of writes -/

/-- One write through an accessor: base coordinate, offset of the neighbour, member, array element, value. -/
structure Write (V : Type) where
  x : Int
  y : Int
  z : Int
  X : Int
  Y : Int
  Z : Int
  r : Nat
  k : Nat
  v : V

/-- The write as an operation on grid `s`. -/
def Write.op (s : Nat) (q : Write V) : Op V := .poke s q.x q.y q.z q.X q.Y q.Z q.r q.k q.v

/-- What is written to. -/
def Write.target (q : Write V) : Int × Int × Int × Nat × Nat := (q.x + q.X, q.y + q.Y, q.z + q.Z, q.r, q.k)

/-- The write hits a registered member of a cell in range. -/
def Write.ok (C : Cfg V) (d : Ext) (q : Write V) : Prop :=
  (∃ m, C.L[q.r]? = some m ∧ q.k < m.elems) ∧ 0 ≤ q.x + q.X ∧ q.x + q.X < d.x ∧ 0 ≤ q.y + q.Y ∧ q.y + q.Y < d.y ∧
    0 ≤ q.z + q.Z ∧ q.z + q.Z < d.z

theorem run_writes (hL : C.L.WF) (dv : V) {s : Nat} (l : List (Write V)) {w : World V} {a : AWorld V}
    (hR : R C w a) {g : AGrid V} (hs : a s = .grid g) (hok : ∀ q ∈ l, q.ok C g.dim)
    (hne : l.Pairwise fun q q' => q.target ≠ q'.target) :
    ∃ w' outs a' g', w.run C (l.map (Write.op s)) = .ok (w', outs) ∧ R C w' a' ∧ a' s = .grid g' ∧ g'.dim = g.dim ∧
      (∀ q ∈ l, ∀ x y z : Nat, q.target = ((x : Int), (y : Int), (z : Int), q.r, q.k) → g'.cells x y z q.r q.k = q.v) ∧
      (∀ x y z r k : Nat, (∀ q ∈ l, q.target ≠ ((x : Int), (y : Int), (z : Int), r, k)) →
        g'.cells x y z r k = g.cells x y z r k) := by
  induction l generalizing w a g with
  | nil => exact ⟨w, [], a, g, rfl, hR, hs, rfl, by simp, fun _ _ _ _ _ _ => rfl⟩
  | cons q l ih =>
    obtain ⟨⟨m, hm, hk⟩, x0, x1, y0, y1, z0, z1⟩ := hok q (by simp)
    obtain ⟨w1, out, a1, h1, h2, h3⟩ := step_refines hL dv hR (q.op s) ⟨g, m, hs, hm, hk, x0, x1, y0, y1, z0, z1⟩
    have hp := List.pairwise_cons.1 hne
    unfold Write.op at h2
    cases h2 with
    | poke _ _ _ _ _ _ _ _ _ _ g' px py pz hg' hx hy hz =>
      rw [hs] at hg'; cases hg'
      have hs' := upd_self a s
        (.grid { g with cells := Spec.setRow g.cells px py pz 1 (fun _ => (g.cells px py pz).set q.r q.k q.v) })
      obtain ⟨w2, outs, a2, g2, k1, k2, k3, k4, k5, k6⟩ := ih h3 hs' (fun q' hq' => hok q' (by simp [hq'])) hp.2
      refine ⟨w2, .unit :: outs, a2, g2, ?_, k2, k3, k4, ?_, ?_⟩
      · simp only [List.map_cons, World.run, h1, k1]
      · intro q' hq' x y z ht
        rcases List.mem_cons.1 hq' with rfl | hq'
        · rw [k6 x y z _ _ (fun q'' hq'' he => hp.1 q'' hq'' (by rw [ht, he]))]
          simp only [Write.target, Prod.mk.injEq, and_true] at ht
          obtain ⟨rfl, rfl, rfl⟩ : x = px ∧ y = py ∧ z = pz := by omega
          simp [Spec.setRow, Cell.set]
        · exact k5 q' hq' x y z ht
      · intro x y z r k hno
        rw [k6 x y z r k (fun q' hq' => hno q' (by simp [hq']))]
        have := hno q (by simp)
        simp only [Spec.setRow]
        split
        · rename_i hc
          obtain ⟨rfl, rfl, hc1, hc2⟩ := hc
          obtain rfl : x = px := by omega
          have hrk : ¬ (r = q.r ∧ k = q.k) := by
            rintro ⟨rfl, rfl⟩
            exact this (by simp only [Write.target, hx, hy, hz])
          simp [Cell.set, hrk]
        · rfl

/-- C22: writes to pairwise different targets may be executed in any order: every order runs without undefined behaviour
    and yields the same cells; each target has the value written, everything else is unchanged. -/
theorem C22_order_irrelevant (hL : C.L.WF) {w : World V} (hV : Valid C dv w) {s : Nat} {d : Ext} (hd : DimsAre C w s d)
    (l l' : List (Write V)) (hperm : l.Perm l') (hok : ∀ q ∈ l, q.ok C d)
    (hne : l.Pairwise fun q q' => q.target ≠ q'.target) :
    ∃ w1 outs1 w2 outs2, w.run C (l.map (Write.op s)) = .ok (w1, outs1) ∧ w.run C (l'.map (Write.op s)) = .ok (w2, outs2) ∧
      DimsAre C w1 s d ∧ DimsAre C w2 s d ∧
      ∀ x y z, InDim d x y z → ∃ c0 c, CellIs C w s x y z c0 ∧ CellIs C w1 s x y z c ∧ CellIs C w2 s x y z c ∧
        (∀ q ∈ l, q.target = ((x : Int), (y : Int), (z : Int), q.r, q.k) → c q.r q.k = q.v) ∧
        (∀ r k : Nat, (∀ q ∈ l, q.target ≠ ((x : Int), (y : Int), (z : Int), r, k)) → c r k = c0 r k) := by
  by_cases hd0 : d = ⟨0, 0, 0⟩
  · subst hd0
    have hl : l = [] := by
      cases l with
      | nil => rfl
      | cons q l =>
        obtain ⟨_, h1, h2, _⟩ := hok q (List.mem_cons_self ..)
        exact absurd h2 (by simp only; omega)
    subst hl
    obtain rfl := List.nil_perm.1 hperm
    exact ⟨w, [], w, [], rfl, rfl, hd, hd, fun x y z h => absurd h.1 (Nat.not_lt_zero _)⟩
  obtain ⟨a, hR⟩ := hV.refines hL
  obtain ⟨g, hs, rfl⟩ := hR.of_dims hd hd0
  obtain ⟨w1, outs1, a1, g1, h1, h2, h3, h4, h5, h6⟩ := run_writes hL dv l hR hs hok hne
  have hne' : l'.Pairwise fun q q' => q.target ≠ q'.target := hperm.pairwise hne (fun h he => h he.symm)
  obtain ⟨w2, outs2, a2, g2, k1, k2, k3, k4, k5, k6⟩ := run_writes hL dv l' hR hs
    (fun q hq => hok q (hperm.mem_iff.2 hq)) hne'
  refine ⟨w1, outs1, w2, outs2, h1, k1, dims_of h2 h3 h4, dims_of k2 k3 k4, fun x y z hin => ?_⟩
  refine ⟨g.cells x y z, g1.cells x y z, hR.cellIs hL hs hin, h2.cellIs hL h3 (by rw [h4]; exact hin), ?_, ?_, ?_⟩
  · have hc := k2.cellIs hL k3 (x := x) (y := y) (z := z) (by rw [k4]; exact hin)
    refine CellIs.of_eq ?_ hc
    funext r k
    by_cases he : ∃ q ∈ l, q.target = ((x : Int), (y : Int), (z : Int), r, k)
    · obtain ⟨q, hq, hqt⟩ := he
      have hr : q.r = r ∧ q.k = k := by
        simp only [Write.target, Prod.mk.injEq] at hqt; exact ⟨hqt.2.2.2.1, hqt.2.2.2.2⟩
      obtain ⟨rfl, rfl⟩ := hr
      rw [h5 q hq x y z hqt, k5 q (hperm.mem_iff.1 hq) x y z hqt]
    · have he1 : ∀ q ∈ l, q.target ≠ ((x : Int), (y : Int), (z : Int), r, k) := fun q hq hqt => he ⟨q, hq, hqt⟩
      rw [h6 x y z r k he1, k6 x y z r k (fun q hq => he1 q (hperm.mem_iff.2 hq))]
  · exact fun q hq hqt => h5 q hq x y z hqt
  · exact fun r k hno => h6 x y z r k hno

example := C22_order_irrelevant demoL_WF demo_valid demo_dims0
  [⟨1, 1, 1, -1, 0, 0, 1, 2, 5⟩, ⟨0, 1, 1, 0, 0, 0, 1, 1, 6⟩, ⟨0, 0, 0, 1, 0, 0, 1, 2, 7⟩] _ (List.reverse_perm _).symm
  (by simp [Write.ok, demoC, demoL, Member.elems]) (by decide)

end
end LFA.Props
