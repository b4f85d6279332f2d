import Verif.MachGridProof
import Verif.Demo

/-
  C79: programs over soa_grid which respect the contracts of their operations do not overflow on a 64-bit machine, and compute
  there what they compute with unbounded integers.
-/
set_option linter.unusedSectionVars false
namespace LFA.Props
open Mach

section
variable {V : Type} [DecidableEq V]

/-- The operations respect their contracts (`Spec.Legal`), and their arguments stay in the address space of the machine
(`Mach.Fits`), whatever the specification lets happen. -/
def LegalM (C : Cfg V) (dv : V) : AWorld V → List (Op V) → Prop
  | _, [] => True
  | a, op :: ops => Spec.Pre C a op ∧ Fits a op ∧ ∀ a' out, Spec.Post C dv a op a' out → LegalM C dv a' ops

theorem LegalM.legal {C : Cfg V} {dv : V} : ∀ {ops : List (Op V)} {a : AWorld V}, LegalM C dv a ops → Spec.Legal C dv a ops
  | [], _, _ => trivial
  | _ :: _, _, h => ⟨h.1, fun a' out hp => (h.2.2 a' out hp).legal⟩

theorem mach_run_eq {C : Cfg V} {dv : V} (hL : C.L.WF) (hagg : aggSize C.L ≤ 2 ^ 31)
    (hsm : ∀ d e, selectSizes C.tr d = .ok e → Small e) :
    ∀ (ops : List (Op V)) {w : World V} {a : AWorld V}, R C w a → LegalM C dv a ops → Mach.run C w ops = w.run C ops
  | [], _, _, _, _ => rfl
  | op :: ops, w, a, hR, hleg => by
    obtain ⟨hpre, hfit, hnext⟩ := hleg
    obtain ⟨w1, out, a1, h1, h2, h3⟩ := step_refines hL dv hR op hpre
    have h4 := step_eq hL hagg hsm dv hR op hpre hfit
    simp only [Mach.run, World.run, h4, h1]
    rw [mach_run_eq hL hagg hsm ops h3 (hnext a1 out h2)]
    rfl

/-- **C79** (extents as selected by the traits are positive and hold at most 2^31 cells, structs have at most 2^31 bytes): a
program which respects the contracts runs through on the machine, i.e. nothing overflows, wraps or leaves a buffer; its results
are those of the specification; and it reaches the very state which unbounded integers reach. -/
theorem C79_run {C : Cfg V} (dv : V) (hL : C.L.WF) (hagg : aggSize C.L ≤ 2 ^ 31)
    (hsm : ∀ d e, selectSizes C.tr d = .ok e → 0 < e.x ∧ 0 < e.y ∧ 0 < e.z ∧ e.x * e.y * e.z ≤ 2 ^ 31)
    (ops : List (Op V)) (hleg : LegalM C dv Spec.start ops) :
    ∃ w outs a, Mach.run C World.init ops = .ok (w, outs) ∧ Spec.Run C dv Spec.start ops a outs
      ∧ World.init.run C ops = .ok (w, outs) := by
  obtain ⟨w, outs, a, h1, h2, -, -⟩ := run_refines hL R.init ops [] (by rw [List.append_nil]; exact hleg.legal)
  refine ⟨w, outs, a, ?_, h2, h1⟩
  rw [mach_run_eq hL hagg (fun d e h => ⟨(hsm d e h).1, (hsm d e h).2.1, (hsm d e h).2.2.1, (hsm d e h).2.2.2⟩) ops R.init hleg]
  exact h1

/-- **C79** for the extents the library selects unless the user specialises the traits. -/
theorem C79_default (L : Layout V) (asym : Bool) (dv : V) (hL : L.WF) (hagg : aggSize L ≤ 2 ^ 31)
    (ops : List (Op V)) (hleg : LegalM ⟨L, .dflt, asym⟩ dv Spec.start ops) :
    ∃ w outs a, Mach.run ⟨L, .dflt, asym⟩ World.init ops = .ok (w, outs) ∧ Spec.Run ⟨L, .dflt, asym⟩ dv Spec.start ops a outs
      ∧ World.init.run ⟨L, .dflt, asym⟩ ops = .ok (w, outs) :=
  C79_run dv hL hagg (fun _ _ h => ⟨(default_small h).px, (default_small h).py, (default_small h).pz, (default_small h).le⟩)
    ops hleg

/-- **C79**, every state on the way: a program may be stopped anywhere; the next operation does on the machine what it does
with unbounded integers. -/
theorem C79_step {C : Cfg V} (dv : V) (hL : C.L.WF) (hagg : aggSize C.L ≤ 2 ^ 31)
    (hsm : ∀ d e, selectSizes C.tr d = .ok e → 0 < e.x ∧ 0 < e.y ∧ 0 < e.z ∧ e.x * e.y * e.z ≤ 2 ^ 31)
    (ops : List (Op V)) (op : Op V) (hleg : LegalM C dv Spec.start (ops ++ [op])) :
    ∃ w outs w' out, Mach.run C World.init ops = .ok (w, outs) ∧ Mach.step C w op = .ok (w', out)
      ∧ World.init.run C ops = .ok (w, outs) ∧ w.step C op = .ok (w', out) := by
  have hsm' : ∀ d e, selectSizes C.tr d = .ok e → Small e :=
    fun d e h => ⟨(hsm d e h).1, (hsm d e h).2.1, (hsm d e h).2.2.1, (hsm d e h).2.2.2⟩
  have key : ∀ (ops : List (Op V)) {w : World V} {a : AWorld V}, R C w a → LegalM C dv a (ops ++ [op]) →
      ∃ w1 outs w' out, Mach.run C w ops = .ok (w1, outs) ∧ Mach.step C w1 op = .ok (w', out)
        ∧ w.run C ops = .ok (w1, outs) ∧ w1.step C op = .ok (w', out) := by
    intro ops
    induction ops with
    | nil =>
      intro w a hR hleg
      obtain ⟨hpre, hfit, -⟩ := hleg
      obtain ⟨w1, out, a1, h1, -⟩ := step_refines hL dv hR op hpre
      exact ⟨w, [], w1, out, rfl, by rw [step_eq hL hagg hsm' dv hR op hpre hfit]; exact h1, rfl, h1⟩
    | cons o ops ih =>
      intro w a hR hleg
      obtain ⟨hpre, hfit, hnext⟩ := hleg
      obtain ⟨w1, out, a1, h1, h2, h3⟩ := step_refines hL dv hR o hpre
      have h4 := step_eq hL hagg hsm' dv hR o hpre hfit
      obtain ⟨w2, outs, w', out', k1, k2, k3, k4⟩ := ih h3 (hnext a1 out h2)
      exact ⟨w2, out :: outs, w', out', by simp only [Mach.run, h4, h1, k1], k2, by simp only [World.run, h1, k3], k4⟩
  exact key ops R.init hleg

end

/-- **C79 needs small extents**: with traits whose smallest extents are huge, a grid of one cell overflows where unbounded integers do not. -/
theorem C79_needs_small :
    LegalM ⟨demoL, .custom [2 ^ 33] [2 ^ 33] [1], false⟩ 0 Spec.start [.new 0 ⟨1, 1, 1⟩]
    ∧ (∃ w outs, World.init.run ⟨demoL, .custom [2 ^ 33] [2 ^ 33] [1], false⟩ [.new 0 ⟨1, 1, 1⟩] = .ok (w, outs))
    ∧ Mach.run ⟨demoL, .custom [2 ^ 33] [2 ^ 33] [1], false⟩ World.init [.new 0 ⟨1, 1, 1⟩] = .error .oob := by
  have hl : LegalM ⟨demoL, .custom [2 ^ 33] [2 ^ 33] [1], false⟩ 0 Spec.start [.new 0 ⟨1, 1, 1⟩] :=
    ⟨rfl, trivial, fun _ _ _ => trivial⟩
  refine ⟨hl, ?_, ?_⟩
  · obtain ⟨w, outs, a, h1, -⟩ := run_refines (C := ⟨demoL, .custom [2 ^ 33] [2 ^ 33] [1], false⟩) (dv := 0) demoL_WF R.init
      [.new 0 ⟨1, 1, 1⟩] [] (by rw [List.append_nil]; exact hl.legal)
    exact ⟨w, outs, h1⟩
  · have hb := C48_custom.2.2
    have hsel := C48_custom.1
    have h1 : ∀ (bytes : Ext → Option Int), bytes ⟨2 ^ 33, 2 ^ 33, 1⟩ = none → ∀ h : Heap Int,
        resizeWith ⟨demoL, .custom [2 ^ 33] [2 ^ 33] [1], false⟩ bytes ⟨⟨0, 0, 0⟩, none, none, none, none, none⟩ ⟨1, 1, 1⟩ h
          = .ub overflow := by
      intro bytes hb h
      unfold resizeWith
      rw [if_neg (by simp)]
      simp only [destroyAndDeallocate, Res.withGrid, Res.bind, hsel, hb]
    simp only [Mach.run, Mach.step, World.init, Mach.new, Mach.resize, h1 _ hb, World.ofCtor, overflow]

/-- The dimensions of a grid variable. -/
def dimOf (σ : ASlot Int) : Option Ext :=
  match σ with
  | .grid g => some g.dim
  | _ => none

theorem dimOf_some {σ : ASlot Int} {d : Ext} (h : dimOf σ = some d) : ∃ g, σ = .grid g ∧ g.dim = d := by
  cases σ with
  | grid g => exact ⟨g, rfl, Option.some.inj h⟩
  | absent => cases h
  | blank => cases h

theorem LegalM.next {C : Cfg Int} {a : AWorld Int} {op : Op Int} {ops : List (Op Int)} {d0 d1 : Option Ext}
    (hpre : Spec.Pre C a op) (hfit : Fits a op)
    (hpost : ∀ a' out, Spec.Post C 0 a op a' out → dimOf (a' 0) = d0 ∧ dimOf (a' 1) = d1)
    (h : ∀ a', dimOf (a' 0) = d0 → dimOf (a' 1) = d1 → LegalM C 0 a' ops) : LegalM C 0 a (op :: ops) :=
  ⟨hpre, hfit, fun a' out hp => h a' (hpost a' out hp).1 (hpost a' out hp).2⟩

/-- Instance: two grids with extents chosen by the library; cells are written, one next to the accessor's position, a grid is
assigned, resized, and both are destroyed. -/
theorem demo_legalM : LegalM (⟨demoL, .dflt, false⟩ : Cfg Int) 0 Spec.start
    [.new 0 ⟨30, 20, 10⟩, .new 1 ⟨5, 2, 2⟩, .set 0 1 1 1 [demoCell], .poke 0 1 1 1 (-1) 0 0 1 2 77, .assign 1 0,
      .peek 1 1 1 1 (-1) 0 0 1 2, .resize 0 ⟨100, 1, 1⟩, .destroy 1, .destroy 0] := by
  have e1 : selectSizes .dflt ⟨30, 20, 10⟩ = .ok ⟨32, 32, 32⟩ := by decide
  have e2 : selectSizes .dflt ⟨5, 2, 2⟩ = .ok ⟨32, 32, 32⟩ := by decide
  have e3 : selectSizes .dflt ⟨100, 1, 1⟩ = .ok ⟨128, 1, 1⟩ := by decide
  refine ⟨rfl, trivial, fun a1 out hp => ?_⟩
  cases hp with
  | newFail _ _ x hd h => rw [e1] at h; cases h
  | new _ _ e hd h =>
  refine ⟨rfl, trivial, fun a2 out hp => ?_⟩
  cases hp with
  | newFail _ _ x hd h => rw [e2] at h; cases h
  | new _ _ e' hd' h' =>
  refine LegalM.next (d0 := some ⟨30, 20, 10⟩) (d1 := some ⟨5, 2, 2⟩) ⟨_, rfl, by simp, by simp, by simp⟩ trivial
    (fun a' out hp => ?_) (fun a3 h0 h1 => ?_)
  · cases hp with
    | set _ _ _ _ _ new g hg hn => cases hg; exact ⟨rfl, rfl⟩
  obtain ⟨g0, hg0, q0⟩ := dimOf_some h0
  obtain ⟨g1, hg1, q1⟩ := dimOf_some h1
  refine LegalM.next (d0 := some ⟨30, 20, 10⟩) (d1 := some ⟨5, 2, 2⟩) ⟨g0, ⟨⟨4, true⟩, some 3, 0⟩, hg0, rfl, by decide, ?_⟩ ?_
    (fun a' out hp => ?_) (fun a4 h0 h1 => ?_)
  · rw [q0]; decide
  · intro g hg; rw [hg0] at hg; cases hg; rw [q0]; decide
  · cases hp with
    | poke _ _ _ _ _ _ _ _ _ _ g px py pz hg =>
      rw [hg0] at hg; cases hg
      exact ⟨congrArg some q0, h1⟩
  clear hg0 hg1 q0 q1
  obtain ⟨g0, hg0, q0⟩ := dimOf_some h0
  obtain ⟨g1, hg1, q1⟩ := dimOf_some h1
  refine LegalM.next (d0 := some ⟨30, 20, 10⟩) (d1 := some ⟨30, 20, 10⟩) ⟨by rw [hg1]; exact (fun h => nomatch h), g0, hg0⟩ trivial
    (fun a' out hp => ?_) (fun a5 h0 h1 => ?_)
  · cases hp with
    | assign _ _ g ext hg => rw [hg0] at hg; cases hg; exact ⟨h0, congrArg some q0⟩
    | assignBlank _ _ g hg hs => rw [hg1] at hs; cases hs
  clear hg0 hg1 q0 q1
  obtain ⟨g0, hg0, q0⟩ := dimOf_some h0
  obtain ⟨g1, hg1, q1⟩ := dimOf_some h1
  refine LegalM.next (d0 := some ⟨30, 20, 10⟩) (d1 := some ⟨30, 20, 10⟩) ⟨g1, ⟨⟨4, true⟩, some 3, 0⟩, hg1, rfl, by decide, ?_⟩ ?_
    (fun a' out hp => ?_) (fun a6 h0 h1 => ?_)
  · rw [q1]; decide
  · intro g hg; rw [hg1] at hg; cases hg; rw [q1]; decide
  · cases hp; exact ⟨h0, h1⟩
  clear hg0 hg1 q0 q1
  obtain ⟨g0, hg0, q0⟩ := dimOf_some h0
  obtain ⟨g1, hg1, q1⟩ := dimOf_some h1
  refine LegalM.next (d0 := some ⟨100, 1, 1⟩) (d1 := some ⟨30, 20, 10⟩) (by simp only [Spec.Pre, hg0]; exact ⟨_, e3⟩) trivial
    (fun a' out hp => ?_) (fun a7 h0 h1 => ?_)
  · generalize hd : (⟨100, 1, 1⟩ : Ext) = d at hp
    cases hp with
    | resizeBlank _ h => rw [hg0] at h; cases h
    | resizeSame _ g h => rw [hg0] at h; cases h; rw [q0] at hd; cases hd
    | resize _ d e h hb hg he => exact ⟨rfl, h1⟩
  clear hg0 hg1 q0 q1
  obtain ⟨g0, hg0, q0⟩ := dimOf_some h0
  obtain ⟨g1, hg1, q1⟩ := dimOf_some h1
  refine LegalM.next (d0 := some ⟨100, 1, 1⟩) (d1 := none) (by simp only [Spec.Pre, hg1]; exact (fun h => nomatch h)) trivial
    (fun a' out hp => ?_) (fun a8 h0 h1 => ?_)
  · cases hp; exact ⟨h0, rfl⟩
  obtain ⟨g0, hg0, q0⟩ := dimOf_some h0
  exact ⟨by simp only [Spec.Pre, hg0]; exact (fun h => nomatch h), trivial, fun _ _ _ => trivial⟩

example : ∃ w outs a, Mach.run ⟨demoL, .dflt, false⟩ World.init
      [.new 0 ⟨30, 20, 10⟩, .new 1 ⟨5, 2, 2⟩, .set 0 1 1 1 [demoCell], .poke 0 1 1 1 (-1) 0 0 1 2 77, .assign 1 0,
        .peek 1 1 1 1 (-1) 0 0 1 2, .resize 0 ⟨100, 1, 1⟩, .destroy 1, .destroy 0] = .ok (w, outs)
    ∧ Spec.Run ⟨demoL, .dflt, false⟩ 0 Spec.start
      [.new 0 ⟨30, 20, 10⟩, .new 1 ⟨5, 2, 2⟩, .set 0 1 1 1 [demoCell], .poke 0 1 1 1 (-1) 0 0 1 2 77, .assign 1 0,
        .peek 1 1 1 1 (-1) 0 0 1 2, .resize 0 ⟨100, 1, 1⟩, .destroy 1, .destroy 0] a outs := by
  obtain ⟨w, outs, a, h1, h2, -⟩ := C79_default demoL false 0 demoL_WF (by decide) _ demo_legalM
  exact ⟨w, outs, a, h1, h2⟩

/-- **C79 needs the accessor inside of the grid**: from far away the right neighbour is read by unbounded integers only. -/
theorem C79_needs_near :
    ∃ w, Valid (⟨demoL, .dflt, false⟩ : Cfg Int) 0 w
      ∧ w.step ⟨demoL, .dflt, false⟩ (.peek 0 (2 ^ 63) 0 0 (-(2 ^ 63)) 0 0 1 2) = .ok (w, .val (some 0))
      ∧ Mach.step ⟨demoL, .dflt, false⟩ w (.peek 0 (2 ^ 63) 0 0 (-(2 ^ 63)) 0 0 1 2) = .error .oob := by
  have e1 : selectSizes .dflt ⟨5, 2, 2⟩ = .ok ⟨32, 32, 32⟩ := by decide
  have hleg : Spec.Legal (⟨demoL, .dflt, false⟩ : Cfg Int) 0 Spec.start [.new 0 ⟨5, 2, 2⟩] :=
    .new rfl (by decide) (e := ⟨32, 32, 32⟩) e1 .nil
  obtain ⟨w, outs, a, h1, h2, h3, -⟩ := run_refines (C := ⟨demoL, .dflt, false⟩) (dv := 0) demoL_WF R.init [.new 0 ⟨5, 2, 2⟩] []
    (by rw [List.append_nil]; exact hleg)
  refine ⟨w, ⟨_, outs, hleg, h1⟩, ?_⟩
  cases h2 with
  | cons hp hn =>
  cases hn
  cases hp with
  | newFail _ _ x hd h => rw [e1] at h; cases h
  | new _ _ e hd h =>
  rw [e1] at h
  cases h
  obtain ⟨g, hg1, hg2⟩ := h3.grid (s := 0) rfl
  constructor
  · have k1 := hg2.peek (C := ⟨demoL, .dflt, false⟩) demoL_WF (x := 2 ^ 63) (y := 0) (z := 0) (X := -(2 ^ 63)) (Y := 0) (Z := 0)
      (px := 0) (py := 0) (pz := 0) (r := 1) (k := 2) (m := ⟨⟨4, true⟩, some 3, 0⟩) rfl (by decide) (by norm_num) (by norm_num)
      (by norm_num) (by decide +revert) (by decide +revert) (by decide +revert)
    simp only [World.step, World.withG, hg1, k1, World.ofH]
    rfl
  · obtain ⟨q1, e, id, b, q2, q3, q4, -⟩ := hg2
    simp only at q1 q2
    rw [e1] at q2
    cases q2
    have hn : Mach.genIndex ⟨32, 32, 32⟩ (2 ^ 63) 0 0 = none := by decide
    have hu : Mach.userRef demoL b.size ⟨32, 32, 32⟩ (2 ^ 63) 0 0 (-(2 ^ 63)) 0 0 1 ⟨⟨4, true⟩, some 3, 0⟩ 2 = none := by
      unfold Mach.userRef
      rw [hn]
      rfl
    have hm : demoL[1]? = some ⟨⟨4, true⟩, some 3, 0⟩ := rfl
    simp only [Mach.step, World.withG, hg1, Grid.callbackRead, q1, e1, q3, q4, Mach.peekFunctor, hm, hu, chk, World.ofH, overflow]

end LFA.Props
