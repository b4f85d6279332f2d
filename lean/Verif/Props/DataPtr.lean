/-
  C78: handing over buffers by data() and set_data() exchanges the contents of grids.
-/
import Verif.DataPtr
import Verif.Props.Grid2
set_option linter.unusedSectionVars false
namespace LFA

variable {V : Type} [DecidableEq V]

/-! ### Specification -/
namespace Spec

/-- Grids as arrays `a`, as they were when the last operation other than `data` and `set_data` was done. Since then `s` was given the
    contents of `own s`, and `var p` says whose contents the pointer `p` stands for. -/
structure PtrState (V : Type) where
  a : AWorld V
  own : Nat → Nat
  var : Nat → Option Nat

/-- The arrays after the contents were handed over; dimensions and extents stay. -/
def rearrange (own : Nat → Nat) (a : AWorld V) : AWorld V := fun s =>
  match a s, a (own s) with
  | .grid g, .grid g' => .grid { g with cells := g'.cells }
  | x, _ => x

variable (C : Cfg V)

/-- Contract: pointers are taken from grids with contents, are given to grids of the same dimensions, and are not kept across other
    operations. When other operations are called, the contents of each grid belong to exactly one grid. -/
def PtrPre (σ : PtrState V) : PtrOp V → Prop
  | .op o => Function.Bijective σ.own ∧ Pre C (rearrange σ.own σ.a) o
  | .data _ s => ∃ g, σ.a s = .grid g
  | .setData s p => ∃ t g g', σ.var p = some t ∧ σ.a s = .grid g ∧ σ.a t = .grid g' ∧ g.dim = g'.dim

/-- Effect of each statement. -/
inductive PtrPost (dv : V) : PtrState V → PtrOp V → PtrState V → Out V → Prop where
  | op (σ : PtrState V) (o : Op V) (a' : AWorld V) (out : Out V) (h : Post C dv (rearrange σ.own σ.a) o a' out) :
      PtrPost dv σ (.op o) ⟨a', id, fun _ => none⟩ out
  | data (σ : PtrState V) (p s : Nat) : PtrPost dv σ (.data p s) ⟨σ.a, σ.own, World.upd σ.var p (some (σ.own s))⟩ .unit
  | setData (σ : PtrState V) (s p t : Nat) (h : σ.var p = some t) : PtrPost dv σ (.setData s p) ⟨σ.a, World.upd σ.own s t, σ.var⟩ .unit

/-- A history, with everything the caller observes. -/
inductive PtrRun (dv : V) : PtrState V → List (PtrOp V) → PtrState V → List (Out V) → Prop where
  | nil (σ : PtrState V) : PtrRun dv σ [] σ []
  | cons {σ σ' σ'' : PtrState V} {op : PtrOp V} {ops : List (PtrOp V)} {out : Out V} {outs : List (Out V)}
      (hpost : PtrPost C dv σ op σ' out) (h : PtrRun dv σ' ops σ'' outs) : PtrRun dv σ (op :: ops) σ'' (out :: outs)

/-- All statements of a program respect their contracts. -/
def PtrLegal (dv : V) : PtrState V → List (PtrOp V) → Prop
  | _, [] => True
  | σ, op :: ops => PtrPre C σ op ∧ ∀ σ' out, PtrPost C dv σ op σ' out → PtrLegal dv σ' ops

/-- The state in which a program starts. -/
def ptrStart : PtrState V := ⟨start, id, fun _ => none⟩

end Spec

/-! ### Refinement -/

section
variable {C : Cfg V} {dv : V}

/-- Buffer of a grid variable. -/
def bufOf (w : World V) (s : Nat) : Option Nat := (w.g s).bind Grid.data

/-- `W` is the state `w0` of the last other operation, with the buffers of `own`. -/
structure PtrR (C : Cfg V) (W : PtrWorld V) (σ : Spec.PtrState V) : Prop where
  base : ∃ w0, R C w0 σ.a ∧ W.w.h = w0.h ∧ (∀ s, W.w.g s = (w0.g s).map fun g => g.setData (bufOf w0 (σ.own s))) ∧
    ∀ p t, σ.var p = some t → W.p p = some (bufOf w0 t)
  same : ∀ s, σ.own s ≠ s → ∃ g g', σ.a s = .grid g ∧ σ.a (σ.own s) = .grid g' ∧ g.dim = g'.dim
  vars : ∀ p t, σ.var p = some t → ∃ g, σ.a t = .grid g

theorem ptrR_of {w : World V} {a : AWorld V} (h : R C w a) (p : Nat → Option (Option Nat)) : PtrR C ⟨w, p⟩ ⟨a, id, fun _ => none⟩ where
  base := by
    refine ⟨w, h, rfl, fun s => ?_, fun p t e => by cases e⟩
    cases hg : w.g s with
    | none => rfl
    | some g => simp only [hg, Option.map_some, id, bufOf, Option.bind_some, Grid.setData]
  same := fun s h => absurd rfl h
  vars := fun p t e => by cases e

theorem PtrR.init (C : Cfg V) : PtrR C PtrWorld.init Spec.ptrStart := ptrR_of R.init _

/-- If the contents of each grid belong to exactly one grid, then the grids are the rearranged arrays. -/
theorem PtrR.settle {W : PtrWorld V} {σ : Spec.PtrState V} (hR : PtrR C W σ) (hb : Function.Bijective σ.own) :
    R C W.w (Spec.rearrange σ.own σ.a) := by
  obtain ⟨w0, h0, hh, hg, -⟩ := hR.base
  -- the buffer of each grid is that of `own s`
  have hbuf : ∀ s g id, W.w.g s = some g → g.data = some id → ∃ g0, w0.g (σ.own s) = some g0 ∧ g0.data = some id := by
    intro s g id e1 e2
    rw [hg s] at e1
    obtain ⟨g1, e3, rfl⟩ := Option.map_eq_some_iff.1 e1
    simp only [Grid.setData, bufOf] at e2
    exact Option.bind_eq_some_iff.1 e2
  have hslot : ∀ s, σ.own s = s → W.w.g s = w0.g s := by
    intro s e
    rw [hg s, e]
    cases h1 : w0.g s with
    | none => rfl
    | some g => simp only [Option.map_some, bufOf, h1, Option.bind_some, Grid.setData]
  refine ⟨fun s => ?_, ?_, ?_, ?_, ?_⟩
  · by_cases e : σ.own s = s
    · have h1 := h0.slots s
      rw [hslot s e]
      have h2 : Spec.rearrange σ.own σ.a s = σ.a s := by
        unfold Spec.rearrange
        rw [e]
        cases σ.a s <;> rfl
      rw [h2, hh]
      exact h1
    · obtain ⟨ag, ag', e1, e2, e3⟩ := hR.same s e
      obtain ⟨g, k1, k2, ex, id, b, k3, k4, k5, k6, k7, k8, k9⟩ := h0.grid e1
      obtain ⟨g', m1, m2, ex', id', b', m3, m4, m5, m6, m7, m8, m9⟩ := h0.grid e2
      have hx : ex' = ex := by
        rw [← e3, k3] at m3
        cases m3
        rfl
      subst hx
      have h2 : Spec.rearrange σ.own σ.a s = .grid { ag with cells := ag'.cells } := by
        unfold Spec.rearrange
        rw [e1, e2]
      rw [h2, hg s, k1]
      refine ⟨_, rfl, k2, ex', id', b', k3, ?_, by rw [hh]; exact m5, m6, k7, ?_, k9⟩
      · simp only [Grid.setData, bufOf, m1, Option.bind_some, m4]
      · simp only [e3]
        exact m8
  · intro s s' g g' id e1 e2 e3 e4
    obtain ⟨g0, a1, a2⟩ := hbuf s g id e1 e3
    obtain ⟨g1, b1, b2⟩ := hbuf s' g' id e2 e4
    exact hb.1 (h0.own _ _ _ _ _ a1 b1 a2 b2)
  · intro id b e1
    rw [hh] at e1
    obtain ⟨t, g0, e2, e3⟩ := h0.live id b e1
    obtain ⟨s, rfl⟩ := hb.2 t
    have hex : ∃ g1, w0.g s = some g1 := by
      by_cases e : σ.own s = s
      · rw [e] at e2
        exact ⟨_, e2⟩
      · obtain ⟨ag, ag', e4, -⟩ := hR.same s e
        obtain ⟨g1, k1, -⟩ := h0.grid e4
        exact ⟨g1, k1⟩
    obtain ⟨g1, h1⟩ := hex
    refine ⟨s, g1.setData (bufOf w0 (σ.own s)), by rw [hg s, h1]; rfl, ?_⟩
    simp only [Grid.setData, bufOf, e2, Option.bind_some, e3]
  · intro id hid
    rw [hh] at hid ⊢
    exact h0.fresh id hid
  · rw [hh]
    exact h0.clean

theorem ptr_step_refines (hL : C.L.WF) (dv : V) {W : PtrWorld V} {σ : Spec.PtrState V} (hR : PtrR C W σ) (op : PtrOp V)
    (hpre : Spec.PtrPre C σ op) : ∃ W' out σ', W.step C op = .ok (W', out) ∧ Spec.PtrPost C dv σ op σ' out ∧ PtrR C W' σ' := by
  cases op with
  | op o =>
    obtain ⟨w', out, a', h1, h2, h3⟩ := step_refines hL dv (hR.settle hpre.1) o hpre.2
    exact ⟨⟨w', W.p⟩, out, _, by simp only [PtrWorld.step, h1], .op σ o a' out h2, ptrR_of h3 _⟩
  | data p s =>
    obtain ⟨ag, hs⟩ := hpre
    obtain ⟨w0, h0, hh, hg, hv⟩ := hR.base
    obtain ⟨g, hg0, -⟩ := h0.grid hs
    have e1 : W.w.g s = some (g.setData (bufOf w0 (σ.own s))) := by rw [hg s, hg0]; rfl
    refine ⟨⟨W.w, World.upd W.p p (some (bufOf w0 (σ.own s)))⟩, .unit, _, by simp only [PtrWorld.step, e1, Grid.setData], .data σ p s,
      ⟨w0, h0, hh, hg, fun q t e => ?_⟩, hR.same, fun q t e => ?_⟩
    · simp only [World.upd] at e ⊢
      by_cases hq : q = p
      · rw [if_pos hq] at e ⊢
        cases e
        rfl
      · rw [if_neg hq] at e ⊢
        exact hv q t e
    · simp only [World.upd] at e
      by_cases hq : q = p
      · rw [if_pos hq] at e
        cases e
        by_cases hne : σ.own s = s
        · rw [hne]
          exact ⟨_, hs⟩
        · obtain ⟨_, g', _, h2, _⟩ := hR.same s hne
          exact ⟨_, h2⟩
      · rw [if_neg hq] at e
        exact hR.vars q t e
  | setData s p =>
    obtain ⟨t, ag, ag', hp, hs, ht, hd⟩ := hpre
    obtain ⟨w0, h0, hh, hg, hv⟩ := hR.base
    obtain ⟨g, hg0, -⟩ := h0.grid hs
    have e1 : W.w.g s = some (g.setData (bufOf w0 (σ.own s))) := by rw [hg s, hg0]; rfl
    refine ⟨⟨⟨W.w.h, World.upd W.w.g s (some (g.setData (bufOf w0 t)))⟩, W.p⟩, .unit, _,
      by simp only [PtrWorld.step, e1, hv p t hp, Grid.setData], .setData σ s p t hp, ⟨w0, h0, hh, fun s' => ?_, hv⟩, fun s' hne => ?_, hR.vars⟩
    · simp only [World.upd]
      by_cases hq : s' = s
      · subst hq
        rw [if_pos rfl, if_pos rfl, hg0]
        rfl
      · rw [if_neg hq, if_neg hq]
        exact hg s'
    · simp only [World.upd] at hne ⊢
      by_cases hq : s' = s
      · subst hq
        rw [if_pos rfl]
        exact ⟨_, _, hs, ht, hd⟩
      · rw [if_neg hq] at hne ⊢
        exact hR.same s' hne

theorem ptr_run_refines (hL : C.L.WF) (dv : V) : ∀ (ops : List (PtrOp V)) {W : PtrWorld V} {σ : Spec.PtrState V}, PtrR C W σ →
    Spec.PtrLegal C dv σ ops → ∃ W' outs σ', W.run C ops = .ok (W', outs) ∧ Spec.PtrRun C dv σ ops σ' outs ∧ PtrR C W' σ' := by
  intro ops
  induction ops with
  | nil => intro W σ hR _; exact ⟨W, [], σ, rfl, .nil σ, hR⟩
  | cons op ops ih =>
    intro W σ hR hleg
    obtain ⟨W1, out, σ1, h1, h2, h3⟩ := ptr_step_refines hL dv hR op hleg.1
    obtain ⟨W2, outs, σ2, k1, k2, k3⟩ := ih h3 (hleg.2 σ1 out h2)
    exact ⟨W2, out :: outs, σ2, by simp only [PtrWorld.run, h1, k1], .cons h2 k2, k3⟩

/-! ### C78 -/

/-- C78: each program which also hands over buffers between grids of equal dimensions runs without undefined behaviour, and everything the
    caller observes is as specified by plain arrays whose contents are handed over. -/
theorem C78_history (hL : C.L.WF) (dv : V) (ops : List (PtrOp V)) (hleg : Spec.PtrLegal C dv Spec.ptrStart ops) :
    ∃ W outs σ, PtrWorld.init.run C ops = .ok (W, outs) ∧ Spec.PtrRun C dv Spec.ptrStart ops σ outs := by
  obtain ⟨W, outs, σ, h1, h2, -⟩ := ptr_run_refines hL dv ops (PtrR.init C) hleg
  exact ⟨W, outs, σ, h1, h2⟩

/-- `char *p = s.data(); s.set_data(t.data()); t.set_data(p);` with the pointer variables 0 and 1. -/
def exchange (s t : Nat) : List (PtrOp V) := [.data 0 s, .data 1 t, .setData s 1, .setData t 0]

/-- C78: exchanging the buffers of two grids with equal dimensions exchanges their cells, and leaves their dimensions and all other grids as
    they were. -/
theorem C78_exchange (hL : C.L.WF) {w : World V} (hV : Valid C dv w) {s t : Nat} (hne : s ≠ t) {d : Ext} (hs : DimsAre C w s d)
    (ht : DimsAre C w t d) (hd : d ≠ ⟨0, 0, 0⟩) (p : Nat → Option (Option Nat)) :
    ∃ w' p', (⟨w, p⟩ : PtrWorld V).run C (exchange s t) = .ok (⟨w', p'⟩, [.unit, .unit, .unit, .unit]) ∧
      DimsAre C w' s d ∧ DimsAre C w' t d ∧
      (∀ x y z c, InDim d x y z → CellIs C w s x y z c → CellIs C w' t x y z c) ∧
      (∀ x y z c, InDim d x y z → CellIs C w t x y z c → CellIs C w' s x y z c) ∧
      (∀ u, u ≠ s → u ≠ t → ∀ d', DimsAre C w u d' → DimsAre C w' u d' ∧ ∀ x y z c, InDim d' x y z → CellIs C w u x y z c → CellIs C w' u x y z c) ∧
      w'.h = w.h := by
  obtain ⟨a, hR⟩ := hV.refines hL
  obtain ⟨gs, es, ds⟩ := hR.of_dims hs hd
  obtain ⟨gt, et, dt⟩ := hR.of_dims ht hd
  obtain ⟨g, hg, -⟩ := hR.grid es
  obtain ⟨g', hg', -⟩ := hR.grid et
  have hrun : (⟨w, p⟩ : PtrWorld V).run C (exchange s t) = .ok (⟨⟨w.h, World.upd (World.upd w.g s (some (g.setData g'.data))) t (some (g'.setData g.data))⟩,
      World.upd (World.upd p 0 (some g.data)) 1 (some g'.data)⟩, [.unit, .unit, .unit, .unit]) := by
    simp [exchange, PtrWorld.run, PtrWorld.step, hg, hg', World.upd, Ne.symm hne]
  have hb : Function.Bijective fun u => if u = s then t else if u = t then s else u := by
    have hinv : ∀ u, (fun u => if u = s then t else if u = t then s else u) ((fun u => if u = s then t else if u = t then s else u) u) = u := by
      intro u
      by_cases h1 : u = s
      · subst h1
        simp [Ne.symm hne]
      · by_cases h2 : u = t
        · subst h2
          simp [h1]
        · simp [h1, h2]
    exact Function.Involutive.bijective hinv
  have hP : PtrR C ⟨⟨w.h, World.upd (World.upd w.g s (some (g.setData g'.data))) t (some (g'.setData g.data))⟩, p⟩
      ⟨a, fun u => if u = s then t else if u = t then s else u, fun _ => none⟩ := by
    refine ⟨⟨w, hR, rfl, fun u => ?_, fun _ _ e => by cases e⟩, fun u hu => ?_, fun _ _ e => by cases e⟩
    · simp only [World.upd]
      by_cases h2 : u = t
      · subst h2
        rw [if_pos rfl, if_neg (Ne.symm hne), if_pos rfl, hg']
        simp only [Option.map_some, bufOf, hg, Option.bind_some]
      · rw [if_neg h2]
        by_cases h1 : u = s
        · subst h1
          rw [if_pos rfl, if_pos rfl, hg]
          simp only [Option.map_some, bufOf, hg', Option.bind_some]
        · rw [if_neg h1, if_neg h1, if_neg h2]
          cases hu : w.g u with
          | none => rfl
          | some k => simp only [Option.map_some, bufOf, hu, Option.bind_some, Grid.setData]
    · by_cases h1 : u = s
      · subst h1
        simp only [if_true]
        exact ⟨gs, gt, es, et, ds.trans dt.symm⟩
      · by_cases h2 : u = t
        · subst h2
          simp only [if_neg h1, if_true]
          exact ⟨gt, gs, et, es, dt.trans ds.symm⟩
        · simp [h1, h2] at hu
  have hR' := hP.settle hb
  have rs : Spec.rearrange (fun u => if u = s then t else if u = t then s else u) a s = .grid { gs with cells := gt.cells } := by
    simp [Spec.rearrange, es, et]
  have rt : Spec.rearrange (fun u => if u = s then t else if u = t then s else u) a t = .grid { gt with cells := gs.cells } := by
    simp [Spec.rearrange, es, et, Ne.symm hne]
  refine ⟨_, _, hrun, ?_, ?_, ?_, ?_, ?_, rfl⟩
  · have := hR'.dims rs
    rw [← ds]
    exact this
  · have := hR'.dims rt
    rw [← dt]
    exact this
  · intro x y z c hin hc
    exact (R.cellIs_transfer hL hR hR' es rt (by rw [ds]; exact hin) (by rw [show ({ gt with cells := gs.cells } : AGrid V).dim = gt.dim from rfl, dt]; exact hin)
      rfl c).1 hc
  · intro x y z c hin hc
    exact (R.cellIs_transfer hL hR hR' et rs (by rw [dt]; exact hin) (by rw [show ({ gs with cells := gt.cells } : AGrid V).dim = gs.dim from rfl, ds]; exact hin)
      rfl c).1 hc
  · intro u h1 h2 d' hd'
    have hu : (World.upd (World.upd w.g s (some (g.setData g'.data))) t (some (g'.setData g.data))) u = w.g u := by simp [World.upd, h1, h2]
    constructor
    · have h3 := hd'
      unfold DimsAre at h3 ⊢
      simp only [World.step, World.withG] at h3 ⊢
      rw [hu]
      cases hk : w.g u with
      | none => rw [hk] at h3; cases h3
      | some k =>
        rw [hk] at h3
        simp only at h3 ⊢
        cases h3
        rfl
    · intro x y z c hin hc
      obtain ⟨gu, eu, du⟩ := hR.of_dims hd' (ne_zero_of_inDim hin)
      have ru : Spec.rearrange (fun u => if u = s then t else if u = t then s else u) a u = .grid gu := by
        simp [Spec.rearrange, eu, h1, h2]
      exact (R.cellIs_transfer hL hR hR' eu ru (by rw [du]; exact hin) (by rw [du]; exact hin) rfl c).1 hc

/-- C78: equal dimensions are needed; after exchanging the buffers of other grids a `get` within the dimensions leaves the buffer. -/
theorem C78_needs_dims :
    PtrWorld.init.run Props.intC ([.op (.new 0 ⟨2, 2, 1⟩), .op (.new 1 ⟨2, 4, 1⟩)] ++ exchange 0 1 ++ [.op (.get 1 0 3 0 [fun _ _ => 0])]) =
      .error .oob := by
  rfl

/-- C78: a buffer which is given to a second grid has to be taken away again: destroying both grids is undefined behaviour. -/
theorem C78_shared (hL : C.L.WF) {w : World V} (hV : Valid C dv w) {s t : Nat} (hne : s ≠ t) {d : Ext} (hs : DimsAre C w s d)
    (ht : DimsAre C w t d) (hd : d ≠ ⟨0, 0, 0⟩) (p : Nat → Option (Option Nat)) :
    (⟨w, p⟩ : PtrWorld V).run C [.data 0 t, .setData s 0, .op (.destroy s), .op (.destroy t)] = .error .dangling := by
  obtain ⟨a, hR⟩ := hV.refines hL
  obtain ⟨ag, e1, d1⟩ := hR.of_dims hs hd
  obtain ⟨ag', e2, d2⟩ := hR.of_dims ht hd
  obtain ⟨g, k1, k2, ex, id, b, k3, k4, k5, k6, k7, k8, k9⟩ := hR.grid e1
  obtain ⟨g', m1, m2, ex', id', b', m3, m4, m5, m6, m7, m8, m9⟩ := hR.grid e2
  have hx : ex' = ex := by
    rw [d2, ← d1, k3] at m3
    cases m3
    rfl
  subst hx
  have hok : GridOK C w.h (g.setData (some id')) { ag with cells := ag'.cells } :=
    ⟨k2, ex', id', b', k3, rfl, m5, m6, k7, by rw [d2, ← d1] at m8; exact m8, k9⟩
  obtain ⟨i, h', q0, q1, q2, q3, q4, -⟩ := hok.destroy hL
  simp only [Grid.setData] at q0
  cases q0
  have hs' : (World.upd (World.upd w.g s (some (g.setData (some id')))) s none) t = some g' := by
    simp [World.upd, Ne.symm hne, m1]
  have hdest : g'.destroyAndDeallocate C h' = .ub .dangling := by
    simp [Grid.destroyAndDeallocate, m4, Grid.callbackMut, m2, m3, onBuffer, q3, Res.bind]
  simp only [PtrWorld.run, PtrWorld.step, m1, m4, World.upd, if_true, k1]
  simp only [World.step, World.withG, if_true, Grid.dtor, q1, hdest, World.upd, Ne.symm hne, if_false, m1]

end

/-! ### A non-trivial case -/
namespace Demo

/-- The arrays after two grids of equal dimensions were created and a cell of the first was written. -/
theorem twoGrids_legal (next : List (Op Int))
    (h : ∀ cells, Spec.Legal demoC 0 (World.upd (World.upd (World.upd Spec.start 0
      (.grid ⟨⟨3, 2, 1⟩, some ⟨4, 2, 1⟩, Spec.dfltCells demoL 0⟩)) 1
      (.grid ⟨⟨3, 2, 1⟩, some ⟨4, 2, 1⟩, Spec.dfltCells demoL 0⟩)) 0 (.grid ⟨⟨3, 2, 1⟩, some ⟨4, 2, 1⟩, cells⟩)) next) :
    Spec.Legal demoC 0 Spec.start ([.new 0 ⟨3, 2, 1⟩, .new 1 ⟨3, 2, 1⟩, .set 0 1 1 0 [demoCell]] ++ next) := by
  refine .new rfl (by decide) (e := ⟨4, 2, 1⟩) rfl ?_
  refine .new rfl (by decide) (e := ⟨4, 2, 1⟩) rfl ?_
  refine .set (g := ⟨⟨3, 2, 1⟩, some ⟨4, 2, 1⟩, Spec.dfltCells demoL 0⟩) rfl (by decide) (by decide) (by decide) ?_
  exact h

/-- Two grids, a cell is written, the buffers are exchanged, the cell is read from the other grid, and both grids are destroyed. -/
def ptrOps : List (PtrOp Int) :=
  [.op (.new 0 ⟨3, 2, 1⟩), .op (.new 1 ⟨3, 2, 1⟩), .op (.set 0 1 1 0 [demoCell])] ++ exchange 0 1 ++
    [.op (.peek 1 1 1 0 0 0 0 1 2), .op (.peek 0 1 1 0 0 0 0 1 2), .op (.destroy 0), .op (.destroy 1)]

/-- What is seen: the cell has moved to grid 1. -/
example : ∃ W, PtrWorld.init.run demoC ptrOps =
    .ok (W, [.unit, .unit, .unit, .unit, .unit, .unit, .unit, .val (some 13), .val (some 0), .unit, .unit]) := ⟨_, rfl⟩

theorem rearrange_id (a : AWorld Int) : Spec.rearrange id a = a := by
  funext s
  unfold Spec.rearrange
  cases h : a s <;> simp [h]

theorem Legal.op {σ : Spec.PtrState Int} {o : Op Int} {ops : List (PtrOp Int)} (hb : Function.Bijective σ.own)
    (hp : Spec.Pre demoC (Spec.rearrange σ.own σ.a) o)
    (h : ∀ a' out, Spec.Post demoC 0 (Spec.rearrange σ.own σ.a) o a' out → Spec.PtrLegal demoC 0 ⟨a', id, fun _ => none⟩ ops) :
    Spec.PtrLegal demoC 0 σ (.op o :: ops) := by
  refine ⟨⟨hb, hp⟩, fun σ' out hpost => ?_⟩
  cases hpost with
  | op _ a' out h' => exact h a' _ h'

theorem Legal.data {σ : Spec.PtrState Int} {p s : Nat} {ops : List (PtrOp Int)} {g : AGrid Int} (hs : σ.a s = .grid g)
    (h : Spec.PtrLegal demoC 0 ⟨σ.a, σ.own, World.upd σ.var p (some (σ.own s))⟩ ops) : Spec.PtrLegal demoC 0 σ (.data p s :: ops) := by
  refine ⟨⟨g, hs⟩, fun σ' out hpost => ?_⟩
  cases hpost
  exact h

theorem Legal.setData {σ : Spec.PtrState Int} {p s t : Nat} {ops : List (PtrOp Int)} {g g' : AGrid Int} (hv : σ.var p = some t)
    (hs : σ.a s = .grid g) (ht : σ.a t = .grid g') (hd : g.dim = g'.dim)
    (h : Spec.PtrLegal demoC 0 ⟨σ.a, World.upd σ.own s t, σ.var⟩ ops) : Spec.PtrLegal demoC 0 σ (.setData s p :: ops) := by
  refine ⟨⟨t, g, g', hv, hs, ht, hd⟩, fun σ' out hpost => ?_⟩
  cases hpost with
  | setData _ _ t' h' => rw [hv] at h'; cases h'; exact h

theorem ptrOps_legal : Spec.PtrLegal demoC 0 Spec.ptrStart ptrOps := by
  have hb : Function.Bijective (World.upd (World.upd id 0 1) 1 0) := by
    have hinv : Function.Involutive (World.upd (World.upd (id : Nat → Nat) 0 1) 1 0) := by
      intro u
      by_cases h1 : u = 1
      · subst h1; rfl
      · by_cases h2 : u = 0
        · subst h2; rfl
        · simp [World.upd, h1, h2]
    exact hinv.bijective
  refine Legal.op Function.bijective_id rfl fun a1 o1 p1 => ?_
  rw [show (Spec.ptrStart (V := Int)).own = id from rfl, rearrange_id] at p1
  cases p1 with
  | newFail _ _ x _ hx => cases hx
  | new _ _ e _ he =>
    cases he
    refine Legal.op Function.bijective_id rfl fun a1 o1 p1 => ?_
    rw [show (_ : Spec.PtrState Int).own = id from rfl, rearrange_id] at p1
    cases p1 with
    | newFail _ _ x _ hx => cases hx
    | new _ _ e _ he =>
      cases he
      refine Legal.op Function.bijective_id ⟨_, rfl, by decide, by decide, by decide⟩ fun a1 o1 p1 => ?_
      rw [show (_ : Spec.PtrState Int).own = id from rfl, rearrange_id] at p1
      cases p1 with
      | set _ _ _ _ _ new g hg hn =>
        cases hg
        refine Legal.data rfl (Legal.data rfl (Legal.setData rfl rfl rfl rfl (Legal.setData rfl rfl rfl rfl ?_)))
        refine Legal.op hb ⟨_, ⟨⟨4, true⟩, some 3, 0⟩, rfl, rfl, by decide, by decide, show (1 + 0 : Int) < (3 : Nat) by decide, by decide,
          show (1 + 0 : Int) < (2 : Nat) by decide, by decide, show (0 + 0 : Int) < (1 : Nat) by decide⟩
          fun a1 o1 p1 => ?_
        cases p1
        refine Legal.op Function.bijective_id ⟨_, ⟨⟨4, true⟩, some 3, 0⟩, rfl, rfl, by decide, by decide, show (1 + 0 : Int) < (3 : Nat) by decide, by decide,
          show (1 + 0 : Int) < (2 : Nat) by decide, by decide, show (0 + 0 : Int) < (1 : Nat) by decide⟩ fun a1 o1 p1 => ?_
        cases p1
        refine Legal.op Function.bijective_id (by intro h; cases h) fun a1 o1 p1 => ?_
        cases p1
        refine Legal.op Function.bijective_id (by intro h; cases h) fun a1 o1 p1 => ?_
        trivial

example := C78_history demoL_WF 0 ptrOps ptrOps_legal

theorem twoGrids : ∃ w, Valid demoC 0 w ∧ DimsAre demoC w 0 ⟨3, 2, 1⟩ ∧ DimsAre demoC w 1 ⟨3, 2, 1⟩ := by
  have hl := twoGrids_legal [] (fun _ => trivial)
  rw [List.append_nil] at hl
  exact ⟨_, ⟨_, _, hl, rfl⟩, rfl, rfl⟩

example : ∃ w, ∃ r, (⟨w, fun _ => none⟩ : PtrWorld Int).run demoC (exchange 0 1) = .ok r := by
  obtain ⟨w, h1, h2, h3⟩ := twoGrids
  obtain ⟨w', p', h, -⟩ := C78_exchange demoL_WF h1 (by decide) h2 h3 (by decide) fun _ => none
  exact ⟨w, _, h⟩

example : ∃ w, (⟨w, fun _ => none⟩ : PtrWorld Int).run demoC [.data 0 1, .setData 0 0, .op (.destroy 0), .op (.destroy 1)] = .error .dangling := by
  obtain ⟨w, h1, h2, h3⟩ := twoGrids
  exact ⟨w, C78_shared demoL_WF h1 (by decide) h2 h3 (by decide) fun _ => none⟩

end Demo
end LFA
