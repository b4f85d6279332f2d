import Verif.Props.VecClients
import Verif.Props.DevThreads

/-
  Threads which use grids and vectors of their own can always finish (C86).
-/
set_option linter.unusedSectionVars false
namespace LFA

namespace Prog
variable {Op Out ρ S ι : Type} [DecidableEq ι] {step : S → Op → Except UB (S × Out)}

/-- If no turns lead to undefined behaviour, then threads can always go on until they have finished. -/
theorem finish {P : ι → Prog Op Out ρ} {w : S} (H : ∀ sched, ∃ x, interleave step sched P w = .ok x) (sched is : List ι) :
    ∃ more w' P', interleave step (sched ++ more) P w = .ok (w', P') ∧ ∀ i ∈ is, ∃ r, P' i = .ret r := by
  obtain ⟨⟨w1, P1⟩, h1⟩ := H sched
  obtain ⟨more, w', P', k1, k2⟩ := all_can_finish (step := step) is (P := P1) (w := w1) fun s => by
    obtain ⟨x, h2⟩ := H (sched ++ s)
    rw [interleave_append _ _ h1] at h2
    exact ⟨_, h2⟩
  exact ⟨more, w', P', by rw [interleave_append _ _ h1]; exact k1, fun i hi => k2 i (.inl hi)⟩

end Prog

namespace Props
variable {V : Type} [DecidableEq V] {C : Cfg V} {dv : V} {ρ ι : Type} [DecidableEq ι]

/-- C86: after any turns, threads which use grids of their own can go on until they have all finished. Missing: as in
    `C86_grid_partial`. -/
theorem C86_finish_grid_partial (hL : C.L.WF) {ops : List (Op V)} (hleg : Spec.Legal C dv Spec.start ops) {w : World V}
    {outs : List (Out V)} (hw : World.init.run C ops = .ok (w, outs)) (own : Nat → Option ι) (P : ι → Prog (Op V) (Out V) ρ)
    (hown : ∀ i, (P i).Within gridReads gridWrites own i)
    (hP : ∀ a, Spec.Run C dv Spec.start ops a outs → ∀ i, (P i).Safe (Spec.Pre C) (Spec.Post C dv) a) (sched is : List ι) :
    ∃ more w' P', Prog.interleave (fun w op => World.step C w op) (sched ++ more) P w = .ok (w', P') ∧ ∀ i ∈ is, ∃ r, P' i = .ret r :=
  Prog.finish (fun sched => by
    obtain ⟨w', P', _, h, _⟩ := C86_grid_partial hL hleg hw own P hown hP sched
    exact ⟨_, h⟩) sched is

/-- C86: likewise for threads which use vectors of their own. -/
theorem C86_finish_vector (hL : C.L.WF) (h1 : OneD C.tr) (dv : V) {ops : List (VecOp V)} {σ : VecSpec.State V}
    {outs : List (ArrOut V)} (hσ : VecSpec.run C dv VecSpec.start ops = some (σ, outs)) {w : VecWorld V}
    (hw : VecWorld.init.run C ops = .ok (w, outs)) (own : Nat → Option ι) (P : ι → Prog (VecOp V) (ArrOut V) ρ)
    (hown : ∀ i, (P i).Within vecReads vecWrites own i) (hP : ∀ i, ∃ σ' r, vecAllowed C dv (P i) σ = some (σ', r)) (sched is : List ι) :
    ∃ more w' P', Prog.interleave (fun w op => VecWorld.step C w op) (sched ++ more) P w = .ok (w', P') ∧ ∀ i ∈ is, ∃ r, P' i = .ret r :=
  Prog.finish (fun sched => by
    obtain ⟨w', P', h, _⟩ := C86_vector_all (ρ' := Unit) hL h1 dv hσ hw own P hown hP sched
    exact ⟨_, h⟩) sched is

/-- Any number of threads create a grid each; the first hundred can finish, whatever turns have been taken. -/
example (d : Nat → Ext) (sched : List Nat) := C86_finish_grid_partial (C := demoC) (dv := 0) demoL_WF (ops := []) trivial rfl some
  (fun i => lastCell i (d i) demoCell) (fun i => Dev.lastCell_within rfl (d i) demoCell)
  (fun a h i => by cases h; exact lastCell_safe rfl (d i) demoCell) sched (List.range 100)

/-- Any number of threads copy one vector, change the copies and read them; the first hundred can finish. -/
example : ∃ w : VecWorld Int, ∀ sched : List Nat, ∃ more w' P', Prog.interleave (fun w op => VecWorld.step vecC w op) (sched ++ more)
    (fun i => copier (i + 1) 0 (fun _ _ => (i : Int))) w = .ok (w', P') ∧ ∀ i ∈ List.range 100, ∃ r, P' i = .ret r := by
  have hσ : ∃ σ outs, VecSpec.run vecC 0 VecSpec.start [.newFill 0 3 demoCell] = some (σ, outs) ∧
      σ 0 = some (VecSpec.fill 3 8 demoCell) ∧ ∀ i, σ (i + 1) = none := ⟨_, _, rfl, rfl, fun _ => rfl⟩
  obtain ⟨σ, outs, hσ, h0, h⟩ := hσ
  obtain ⟨w, hw, -⟩ := vec_run_refines vecC_WF vecC_one 0 _ VR.init hσ
  exact ⟨w, fun sched => C86_finish_vector vecC_WF vecC_one 0 hσ hw (fun u => if u = 0 then none else some (u - 1))
    (fun i => copier (i + 1) 0 (fun _ _ => (i : Int))) (fun i => copier_within (by simp) (by simp) _)
    (fun i => by
      obtain ⟨σ', c', h⟩ := copier_allowed (C := vecC) (dv := 0) (h i) h0 (n := 2) rfl (by decide) (by decide) rfl (fun _ _ => (i : Int))
      exact ⟨σ', some c', h⟩) sched (List.range 100)⟩

end Props
end LFA
