import Verif.GridRefine

/-
  From the refinement relation to observations.
-/
set_option linter.unusedSectionVars false
namespace LFA

section
variable {V : Type} [DecidableEq V] {C : Cfg V} {dv : V}

theorem run_refines (hL : C.L.WF) {w : World V} {a : AWorld V} (hR : R C w a) (ops rest : List (Op V))
    (hleg : Spec.Legal C dv a (ops ++ rest)) :
    ∃ w' outs a', w.run C ops = .ok (w', outs) ∧ Spec.Run C dv a ops a' outs ∧ R C w' a' ∧ Spec.Legal C dv a' rest := by
  induction ops generalizing w a with
  | nil => exact ⟨w, [], a, rfl, .nil a, hR, hleg⟩
  | cons op ops ih =>
    obtain ⟨hpre, hnext⟩ := hleg
    obtain ⟨w1, out, a1, h1, h2, h3⟩ := step_refines hL dv hR op hpre
    obtain ⟨w2, outs, a2, k1, k2, k3, k4⟩ := ih h3 (hnext a1 out h2)
    refine ⟨w2, out :: outs, a2, ?_, .cons h2 k2, k3, k4⟩
    simp only [World.run, h1, k1]

theorem ValidNext.refines (hL : C.L.WF) {w : World V} {next : List (Op V)} (h : ValidNext C dv w next) :
    ∃ a, R C w a ∧ Spec.Legal C dv a next := by
  obtain ⟨ops, outs, hleg, hrun⟩ := h
  obtain ⟨w', outs', a', h1, _, h2, h3⟩ := run_refines hL R.init ops next hleg
  rw [hrun] at h1
  cases h1
  exact ⟨a', h2, h3⟩

theorem Valid.refines (hL : C.L.WF) {w : World V} (h : Valid C dv w) : ∃ a, R C w a := by
  obtain ⟨ops, outs, hleg, hrun⟩ := h
  obtain ⟨a, h1, _⟩ := ValidNext.refines (next := []) (dv := dv) hL ⟨ops, outs, by simpa using hleg, hrun⟩
  exact ⟨a, h1⟩

theorem R.dims {w : World V} {a : AWorld V} (hR : R C w a) {s : Nat} {ag : AGrid V} (hs : a s = .grid ag) :
    DimsAre C w s ag.dim := by
  obtain ⟨g, h1, h2⟩ := hR.grid hs
  simp only [DimsAre, World.step, World.withG, h1, h2.1]

/-- A grid with non-zero dimensions is an array. -/
theorem R.of_dims {w : World V} {a : AWorld V} (hR : R C w a) {s : Nat} {d : Ext} (hd : DimsAre C w s d)
    (hne : d ≠ ⟨0, 0, 0⟩) : ∃ ag, a s = .grid ag ∧ ag.dim = d := by
  unfold DimsAre at hd
  cases has : a s with
  | absent => simp [World.step, World.withG, hR.absent has] at hd
  | blank =>
    obtain ⟨g, h1, h2, _⟩ := hR.blank has
    simp only [World.step, World.withG, h1, h2] at hd
    cases hd; exact absurd rfl hne
  | grid ag =>
    obtain ⟨g, h1, h2⟩ := hR.grid has
    simp only [World.step, World.withG, h1, h2.1] at hd
    cases hd; exact ⟨ag, rfl, rfl⟩

theorem ne_zero_of_inDim {d : Ext} {x y z : Nat} (h : InDim d x y z) : d ≠ ⟨0, 0, 0⟩ := by
  rintro rfl; exact absurd h.1 (Nat.not_lt_zero x)

theorem R.cellIs (hL : C.L.WF) {w : World V} {a : AWorld V} (hR : R C w a) {s : Nat} {ag : AGrid V}
    (hs : a s = .grid ag) {x y z : Nat} (hin : InDim ag.dim x y z) : CellIs C w s x y z (ag.cells x y z) := by
  intro t
  obtain ⟨g, h1, h2⟩ := hR.grid hs
  obtain ⟨hx, hy, hz⟩ := hin
  obtain ⟨out, k1, k2, k3⟩ := h2.get hL (x := x) (y := y) (z := z) [t] (by simp; omega) hy hz
  have : out = [overlay C.L (ag.cells x y z) t] := by
    match out, k2, k3 0 t rfl with
    | [o], _, h => simpa using h
  simp only [World.step, World.withG, h1, k1, World.ofH, this]

theorem overlay_eq_iff {L : Layout V} {c c' t : Cell V} (h : overlay L c t = overlay L c' t) :
    ∀ r m k, L[r]? = some m → k < m.elems → c r k = c' r k := by
  intro r m k hm hk
  have := congrFun (congrFun h r) k
  simp only [overlay, hm, hk, if_true] at this
  exact this

theorem overlay_congr {L : Layout V} {c c' t : Cell V} (h : ∀ r m k, L[r]? = some m → k < m.elems → c r k = c' r k) :
    overlay L c t = overlay L c' t := by
  funext r k
  unfold overlay
  cases hm : L[r]? with
  | none => rfl
  | some m =>
    by_cases hk : k < m.elems
    · simp only [hk, if_true]; exact h r m k hm hk
    · simp only [hk, if_false]

/-- Cell values are determined up to the registered members. -/
theorem CellIs.congr {w w' : World V} {s s' x y z x' y' z' : Nat} {c c' : Cell V} (h1 : CellIs C w s x y z c)
    (h2 : CellIs C w s x y z c') (h3 : CellIs C w' s' x' y' z' c) : CellIs C w' s' x' y' z' c' := by
  intro t
  rw [h3 t]
  have e1 := h1 t
  rw [h2 t] at e1
  injection e1 with e1
  injection e1 with _ e1
  injection e1 with e1
  rw [e1]

theorem R.cellIs_iff (hL : C.L.WF) {w : World V} {a : AWorld V} (hR : R C w a) {s : Nat} {ag : AGrid V}
    (hs : a s = .grid ag) {x y z : Nat} (hin : InDim ag.dim x y z) (c : Cell V) :
    CellIs C w s x y z c ↔ ∀ r m k, C.L[r]? = some m → k < m.elems → c r k = ag.cells x y z r k := by
  have h := hR.cellIs hL hs hin
  constructor
  · intro hc r m k hm hk
    have e1 := hc c
    rw [h c] at e1
    injection e1 with e1
    injection e1 with _ e1
    injection e1 with e1
    injection e1 with e1
    exact (overlay_eq_iff e1 r m k hm hk).symm
  · intro hc t
    rw [h t, overlay_congr hc]

/-- Observations of a variable depend on its specification only. -/
theorem R.cellIs_transfer (hL : C.L.WF) {w w' : World V} {a a' : AWorld V} (hR : R C w a) (hR' : R C w' a')
    {s s' : Nat} {ag ag' : AGrid V} (hs : a s = .grid ag) (hs' : a' s' = .grid ag') {x y z x' y' z' : Nat}
    (hin : InDim ag.dim x y z) (hin' : InDim ag'.dim x' y' z') (he : ag.cells x y z = ag'.cells x' y' z') (c : Cell V) :
    CellIs C w s x y z c ↔ CellIs C w' s' x' y' z' c := by
  rw [hR.cellIs_iff hL hs hin, hR'.cellIs_iff hL hs' hin', he]

/-- Operations do not affect grids they do not name. -/
theorem post_frame {a a' : AWorld V} {op : Op V} {out : Out V} (h : Spec.Post C dv a op a' out) {t : Nat}
    (ht : t ∉ op.names) : a' t = a t := by
  cases h <;> simp only [Op.names, List.mem_cons, List.not_mem_nil, or_false, not_or] at ht <;>
    first
    | rfl
    | exact upd_ne _ _ ht
    | exact upd_ne _ _ ht.1
    | (rw [upd_ne _ _ ht.2, upd_ne _ _ ht.1])

theorem R.blankOrGrid_dims {w : World V} {a : AWorld V} (hR : R C w a) {s : Nat} {d : Ext} (h : DimsAre C w s d) :
    (a s = .blank ∧ d = ⟨0, 0, 0⟩) ∨ ∃ ag, a s = .grid ag ∧ ag.dim = d := by
  by_cases hne : d = ⟨0, 0, 0⟩
  · cases has : a s with
    | absent => simp [DimsAre, World.step, World.withG, hR.absent has] at h
    | blank => exact .inl ⟨rfl, hne⟩
    | grid ag =>
      have := hR.dims has
      unfold DimsAre at h this
      rw [h] at this
      cases this
      exact .inr ⟨ag, rfl, rfl⟩
  · exact .inr (hR.of_dims h hne)

end
end LFA
