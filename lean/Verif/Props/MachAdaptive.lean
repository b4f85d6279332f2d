import Verif.Props.Concurrent
import Verif.Props.VecClients
import Verif.Props.MachGrid
import Verif.Props.MachVec
import Verif.Props.MachArr

/-
  C79, C80, C81 for clients which choose their calls by what they have observed, and for several such clients in threads.
-/
set_option linter.unusedSectionVars false
namespace LFA

namespace Prog
variable {Op Out ρ S A ι : Type}

open Classical in
/-- Two ways to execute a call, which must agree. -/
noncomputable def both (f g : S → Op → Except UB (S × Out)) (w : S) (op : Op) : Except UB (S × Out) :=
  if f w op = g w op then f w op else .error .oob

theorem both_ok {f g : S → Op → Except UB (S × Out)} {w : S} {op : Op} {q : S × Out} (h : both f g w op = .ok q) :
    f w op = .ok q ∧ g w op = .ok q := by
  rw [both] at h
  split at h
  · next e => exact ⟨h, e ▸ h⟩
  · cases h

theorem exec_both {f g : S → Op → Except UB (S × Out)} : ∀ (p : Prog Op Out ρ) {w : S} {q : S × ρ}, p.exec (both f g) w = .ok q →
    p.exec f w = .ok q ∧ p.exec g w = .ok q
  | .ret r, w, q, h => ⟨h, h⟩
  | .call op k, w, q, h => by
    rw [exec] at h
    cases e : both f g w op with
    | error u => rw [e] at h; cases h
    | ok x =>
      obtain ⟨e1, e2⟩ := both_ok e
      rw [e] at h
      obtain ⟨k1, k2⟩ := exec_both (k x.2) h
      exact ⟨by rw [exec, e1]; exact k1, by rw [exec, e2]; exact k2⟩

theorem interleave_both [DecidableEq ι] {f g : S → Op → Except UB (S × Out)} : ∀ (sched : List ι) (P : ι → Prog Op Out ρ) {w : S}
    {q : S × (ι → Prog Op Out ρ)}, interleave (both f g) sched P w = .ok q →
    interleave f sched P w = .ok q ∧ interleave g sched P w = .ok q := by
  intro sched
  induction sched with
  | nil => intro P w q h; exact ⟨h, h⟩
  | cons i sched ih =>
    intro P w q h
    rw [interleave] at h ⊢
    rw [interleave]
    cases e : P i with
    | ret r => rw [e] at h; exact ih P h
    | call op k =>
      rw [e] at h
      simp only at h ⊢
      cases e' : both f g w op with
      | error u => rw [e'] at h; cases h
      | ok x =>
        obtain ⟨e1, e2⟩ := both_ok e'
        rw [e'] at h
        rw [e1, e2]
        exact ih _ h

theorem Safe.mono {Pre Pre' : A → Op → Prop} {Post : A → Op → A → Out → Prop} (h : ∀ a op, Pre a op → Pre' a op) :
    ∀ {p : Prog Op Out ρ} {a : A}, p.Safe Pre Post a → p.Safe Pre' Post a
  | .ret _, _, _ => trivial
  | .call _ _, _, ⟨h1, h2⟩ => ⟨h _ _ h1, fun a' out hp => (h2 a' out hp).mono h⟩

/-- All calls which the client might issue. -/
def All (q : Op → Prop) : Prog Op Out ρ → Prop
  | .ret _ => True
  | .call op k => q op ∧ ∀ out, (k out).All q

theorem Safe.and_all {Pre : A → Op → Prop} {Post : A → Op → A → Out → Prop} {q : Op → Prop} :
    ∀ {p : Prog Op Out ρ} {a : A}, p.Safe Pre Post a → p.All q → p.Safe (fun a op => Pre a op ∧ q op) Post a
  | .ret _, _, _, _ => trivial
  | .call _ _, _, ⟨h1, h2⟩, ⟨k1, k2⟩ => ⟨⟨h1, k1⟩, fun a' out hp => (h2 a' out hp).and_all (k2 out)⟩

theorem Local.and {α : Type} {rd wr : Op → List Nat} {Pre Q : (Nat → α) → Op → Prop} {Post : (Nat → α) → Op → (Nat → α) → Out → Prop}
    (h : Local rd wr Pre Post) (hQ : ∀ {a b op}, (∀ s, s ∈ rd op ∨ s ∈ wr op → b s = a s) → Q a op → Q b op) :
    Local rd wr (fun a op => Pre a op ∧ Q a op) Post :=
  ⟨fun hag k => ⟨h.pre hag k.1, hQ hag k.2⟩, h.post, h.frame⟩

end Prog

namespace Props
open Mach

section
variable {V : Type} [DecidableEq V] {ρ ι : Type}

/-! ### Grids -/

theorem mach_grid_both {C : Cfg V} (dv : V) (hL : C.L.WF) (hagg : aggSize C.L ≤ 2 ^ 31)
    (hsm : ∀ d e, selectSizes C.tr d = .ok e → 0 < e.x ∧ 0 < e.y ∧ 0 < e.z ∧ e.x * e.y * e.z ≤ 2 ^ 31)
    {w : World V} {a : AWorld V} (op : Op V) (hR : R C w a) (h : Spec.Pre C a op ∧ Fits a op) :
    ∃ w' out a', Prog.both (fun w op => Mach.step C w op) (fun w op => World.step C w op) w op = .ok (w', out) ∧
      Spec.Post C dv a op a' out ∧ R C w' a' := by
  obtain ⟨w1, out, a1, h1, h2, h3⟩ := step_refines hL dv hR op h.1
  refine ⟨w1, out, a1, ?_, h2, h3⟩
  have e := step_eq hL hagg (fun d e h => ⟨(hsm d e h).1, (hsm d e h).2.1, (hsm d e h).2.2.1, (hsm d e h).2.2.2⟩) dv hR op h.1 h.2
  rw [Prog.both, if_pos e]
  exact e.trans h1

/-- **C79** for clients which choose their calls, dimensions and values by what they have observed: they run through on the machine; the
    result is one the specification allows, and the one of unbounded integers. -/
theorem C79_client {C : Cfg V} (dv : V) (hL : C.L.WF) (hagg : aggSize C.L ≤ 2 ^ 31)
    (hsm : ∀ d e, selectSizes C.tr d = .ok e → 0 < e.x ∧ 0 < e.y ∧ 0 < e.z ∧ e.x * e.y * e.z ≤ 2 ^ 31)
    (p : Prog (Op V) (Out V) ρ) (hp : p.Safe (fun a op => Spec.Pre C a op ∧ Fits a op) (Spec.Post C dv) Spec.start) :
    ∃ w r a, p.exec (fun w op => Mach.step C w op) World.init = .ok (w, r) ∧ p.exec (fun w op => World.step C w op) World.init = .ok (w, r) ∧
      p.Allows (Spec.Post C dv) Spec.start r a := by
  obtain ⟨w, r, a, h1, h2, -⟩ := Prog.exec_refines (R := R C) (fun op hR h => mach_grid_both dv hL hagg hsm op hR h) p R.init hp
  obtain ⟨k1, k2⟩ := Prog.exec_both p h1
  exact ⟨w, r, a, k1, k2, h2⟩

theorem fits_local {a b : AWorld V} {op : Op V} (hag : ∀ s, s ∈ gridReads op ∨ s ∈ gridWrites op → b s = a s) (h : Fits a op) : Fits b op := by
  cases op with
  | poke s x y z X Y Z r k v => intro g hg; rw [hag s (.inr (by simp [gridWrites]))] at hg; exact h g hg
  | peek s x y z X Y Z r k => intro g hg; rw [hag s (.inl (by simp [gridReads]))] at hg; exact h g hg
  | _ => exact h

/-- **C79** for threads as in C86: they reach the state, and have the programs still to be run, which unbounded integers lead to (what
    these are is told by `C86_grid_partial`). -/
theorem C79_threads [DecidableEq ι] {C : Cfg V} (dv : V) (hL : C.L.WF) (hagg : aggSize C.L ≤ 2 ^ 31)
    (hsm : ∀ d e, selectSizes C.tr d = .ok e → 0 < e.x ∧ 0 < e.y ∧ 0 < e.z ∧ e.x * e.y * e.z ≤ 2 ^ 31)
    {ops : List (Op V)} (hleg : Spec.Legal C dv Spec.start ops) {w : World V} {outs : List (Out V)}
    (hw : World.init.run C ops = .ok (w, outs)) (own : Nat → Option ι) (P : ι → Prog (Op V) (Out V) ρ)
    (hown : ∀ i, (P i).Within gridReads gridWrites own i)
    (hP : ∀ a, Spec.Run C dv Spec.start ops a outs → ∀ i, (P i).Safe (fun a op => Spec.Pre C a op ∧ Fits a op) (Spec.Post C dv) a)
    (sched : List ι) :
    ∃ w' P' a, Prog.interleave (fun w op => Mach.step C w op) sched P w = .ok (w', P') ∧
      Prog.interleave (fun w op => World.step C w op) sched P w = .ok (w', P') ∧ Spec.Run C dv Spec.start ops a outs ∧
      ∀ i r, P' i = .ret r → ∃ b, (P i).Allows (Spec.Post C dv) a r b ∧
        ∀ s g, own s = some i → b s = .grid g → DimsAre C w' s g.dim ∧
          ∀ x y z, InDim g.dim x y z → CellIs C w' s x y z (g.cells x y z) := by
  obtain ⟨w', P', a, h1, h2, h3⟩ := C86_grid_partial (dv := dv) hL hleg hw own P hown
    (fun a ha i => (hP a ha i).mono fun _ _ h => h.1) sched
  obtain ⟨w0, outs0, a0, e0, hrun, hR, -⟩ := run_refines hL R.init ops [] (by rw [List.append_nil]; exact hleg)
  rw [hw] at e0; injection e0 with e0; injection e0 with e0 e1; subst e0 e1
  obtain ⟨w1, P1, -, -, k1, -⟩ := Prog.interleave_refines (R := R C) (own := own) ((grid_local (C := C) (dv := dv)).and fits_local)
    (fun op hR h => mach_grid_both dv hL hagg hsm op hR h) P a0 sched P (fun _ => a0) hR (hP a0 hrun) hown (fun _ _ _ => rfl)
    (fun _ _ _ h => h)
  obtain ⟨m1, m2⟩ := Prog.interleave_both sched P k1
  rw [h1] at m2; cases m2
  exact ⟨w', P', a, m1, h1, h2, h3⟩

/-! ### Vectors -/

theorem mach_vec_both {C : Cfg V} (dv : V) (hL : C.L.WF) (hagg : aggSize C.L ≤ 2 ^ 31)
    (hsm : ∀ d e, selectSizes C.tr d = .ok e → 0 < e.x ∧ 0 < e.y ∧ 0 < e.z ∧ e.x * e.y * e.z ≤ 2 ^ 31) (h1 : OneD C.tr) (hr : Roomy C.tr)
    {w : VecWorld V} {σ : VecList.State V} (op : VecOp V) (hR : ∃ τ, VR C w τ ∧ VL C τ σ) (h : VecList.Pre C σ op ∧ OnElement σ op) :
    ∃ w' out σ', Prog.both (fun w op => Mach.vecStep C w op) (fun w op => VecWorld.step C w op) w op = .ok (w', out) ∧
      VecList.Post C dv σ op σ' out ∧ ∃ τ, VR C w' τ ∧ VL C τ σ' := by
  obtain ⟨τ, hR, hl⟩ := hR
  obtain ⟨hpre, hon⟩ := h
  obtain ⟨τ1, out, σ1, e1, e2, e3⟩ := list_step h1 hr dv hR hl op hpre
  obtain ⟨w1, e4, hR1⟩ := vec_step_refines hL h1 dv hR op e1
  have on : ∀ {s : Nat} {x : Int} {l : List (Cell V)}, σ s = some l → 0 ≤ x ∧ x < l.length →
      ∀ a, τ s = some a → 0 ≤ x ∧ x < a.ext := by
    intro s x l hs hx a ha
    obtain ⟨a', ha', hlist⟩ := hl.vec hs
    rw [ha] at ha'; cases ha'
    have := hlist.len
    have := hlist.fit
    exact ⟨hx.1, by omega⟩
  have hfit : FitsV τ op := by
    cases op with
    | poke s x X r k v => obtain ⟨l, m, hs, -⟩ := hpre; exact on hs (hon l hs)
    | peek s x X r k => obtain ⟨l, m, hs, -⟩ := hpre; exact on hs (hon l hs)
    | _ => trivial
  have e5 := vecStep_eq hL hagg (fun d e h => ⟨(hsm d e h).1, (hsm d e h).2.1, (hsm d e h).2.2.1, (hsm d e h).2.2.2⟩) h1 dv hR op e1 hfit
  refine ⟨w1, out, σ1, ?_, e2, τ1, hR1, e3⟩
  rw [Prog.both, if_pos e5]
  exact e5.trans e4

/-- **C80** for clients, as `C79_client`. -/
theorem C80_client {C : Cfg V} (dv : V) (hL : C.L.WF) (hagg : aggSize C.L ≤ 2 ^ 31)
    (hsm : ∀ d e, selectSizes C.tr d = .ok e → 0 < e.x ∧ 0 < e.y ∧ 0 < e.z ∧ e.x * e.y * e.z ≤ 2 ^ 31) (h1 : OneD C.tr) (hr : Roomy C.tr)
    (p : Prog (VecOp V) (ArrOut V) ρ)
    (hp : p.Safe (fun σ op => VecList.Pre C σ op ∧ OnElement σ op) (fun a op a' out => VecList.Post C dv a op a' out) VecList.start) :
    ∃ w r σ, p.exec (fun w op => Mach.vecStep C w op) VecWorld.init = .ok (w, r) ∧
      p.exec (fun w op => VecWorld.step C w op) VecWorld.init = .ok (w, r) ∧
      p.Allows (fun a op a' out => VecList.Post C dv a op a' out) VecList.start r σ := by
  obtain ⟨w, r, σ, k1, k2, -⟩ := Prog.exec_refines (R := fun w σ => ∃ τ, VR C w τ ∧ VL C τ σ)
    (fun op hR h => mach_vec_both dv hL hagg hsm h1 hr op hR h) p ⟨_, VR.init, VL.init⟩ hp
  obtain ⟨m1, m2⟩ := Prog.exec_both p k1
  exact ⟨w, r, σ, m1, m2, k2⟩

theorem onElement_local {a b : VecList.State V} {op : VecOp V} (hag : ∀ s, s ∈ vecReads op ∨ s ∈ vecWrites op → b s = a s)
    (h : OnElement a op) : OnElement b op := by
  cases op with
  | poke s x X r k v => intro l hl; rw [hag s (.inr (by simp [vecWrites]))] at hl; exact h l hl
  | peek s x X r k => intro l hl; rw [hag s (.inl (by simp [vecReads]))] at hl; exact h l hl
  | _ => trivial

/-- **C80** for threads, as `C79_threads`. -/
theorem C80_threads [DecidableEq ι] {C : Cfg V} (dv : V) (hL : C.L.WF) (hagg : aggSize C.L ≤ 2 ^ 31)
    (hsm : ∀ d e, selectSizes C.tr d = .ok e → 0 < e.x ∧ 0 < e.y ∧ 0 < e.z ∧ e.x * e.y * e.z ≤ 2 ^ 31) (h1 : OneD C.tr) (hr : Roomy C.tr)
    {ops : List (VecOp V)} (hleg : VecList.Legal C dv VecList.start ops) {w : VecWorld V} {outs : List (ArrOut V)}
    (hw : VecWorld.init.run C ops = .ok (w, outs)) (own : Nat → Option ι) (P : ι → Prog (VecOp V) (ArrOut V) ρ)
    (hown : ∀ i, (P i).Within vecReads vecWrites own i)
    (hP : ∀ σ, VecList.Run C dv VecList.start ops outs σ → ∀ i, (P i).Safe (fun σ op => VecList.Pre C σ op ∧ OnElement σ op)
      (fun a op a' out => VecList.Post C dv a op a' out) σ) (sched : List ι) :
    ∃ w' P' σ, Prog.interleave (fun w op => Mach.vecStep C w op) sched P w = .ok (w', P') ∧
      Prog.interleave (fun w op => VecWorld.step C w op) sched P w = .ok (w', P') ∧ VecList.Run C dv VecList.start ops outs σ ∧
      ∀ i r, P' i = .ret r → ∃ σ', (P i).Allows (fun a op a' out => VecList.Post C dv a op a' out) σ r σ' ∧
        ∀ s l, own s = some i → σ' s = some l → VecIs C w' s l := by
  obtain ⟨w', P', σ, k1, k2, k3⟩ := C86_vector_partial (dv := dv) hL h1 hr hleg hw own P hown
    (fun a ha i => (hP a ha i).mono fun _ _ h => h.1) sched
  obtain ⟨w0, outs0, τ0, σ0, e0, hrun, hR, hl⟩ := list_run hL h1 hr dv ops VR.init VL.init hleg
  rw [hw] at e0; injection e0 with e0; injection e0 with e0 e1; subst e0 e1
  obtain ⟨w1, P1, -, -, m, -⟩ := Prog.interleave_refines (R := fun w σ => ∃ τ, VR C w τ ∧ VL C τ σ) (own := own)
    ((vec_local (C := C) (dv := dv)).and onElement_local) (fun op hR h => mach_vec_both dv hL hagg hsm h1 hr op hR h)
    P σ0 sched P (fun _ => σ0) ⟨τ0, hR, hl⟩ (hP σ0 hrun) hown (fun _ _ _ => rfl) (fun _ _ _ h => h)
  obtain ⟨m1, m2⟩ := Prog.interleave_both sched P m
  rw [k1] at m2; cases m2
  exact ⟨w', P', σ, m1, k1, k2, k3⟩

/-- **C80** for clients, all calls, copies and assignments included: within the contracts of `VecSpec` and with accessors which start on
    a cell of the buffer, the machine yields the result of unbounded integers, which is the one `VecSpec` tells. -/
theorem C80_client_all {C : Cfg V} (dv : V) (hL : C.L.WF) (hagg : aggSize C.L ≤ 2 ^ 31)
    (hsm : ∀ d e, selectSizes C.tr d = .ok e → 0 < e.x ∧ 0 < e.y ∧ 0 < e.z ∧ e.x * e.y * e.z ≤ 2 ^ 31) (h1 : OneD C.tr)
    (p : Prog (VecOp V) (ArrOut V) ρ) {σ : VecSpec.State V} {r : ρ} (h : vecAllowed C dv p VecSpec.start = some (σ, r))
    (hfit : p.Safe (fun σ op => vecPre C dv σ op ∧ FitsV σ op) (vecPost C dv) VecSpec.start) :
    ∃ w, p.exec (fun w op => Mach.vecStep C w op) VecWorld.init = .ok (w, r) ∧
      p.exec (fun w op => VecWorld.step C w op) VecWorld.init = .ok (w, r) := by
  obtain ⟨w, r', a, k1, k2, -⟩ := Prog.exec_refines (R := VR C)
    (step := Prog.both (fun w op => Mach.vecStep C w op) (fun w op => VecWorld.step C w op))
    (Pre := fun σ op => vecPre C dv σ op ∧ FitsV σ op) (Post := vecPost C dv)
    (fun {w σ} op hR h => by
      obtain ⟨⟨σ', out, hs⟩, hf⟩ := h
      obtain ⟨w1, e1, e2⟩ := vec_step_refines hL h1 dv hR op hs
      have e := vecStep_eq hL hagg (fun d e h => ⟨(hsm d e h).1, (hsm d e h).2.1, (hsm d e h).2.2.1, (hsm d e h).2.2.2⟩) h1 dv hR op hs hf
      refine ⟨w1, out, σ', ?_, hs, e2⟩
      rw [Prog.both, if_pos e]
      exact e.trans e1) p VR.init hfit
  obtain ⟨rfl, -⟩ := (vec_safe p h).2 _ _ k2
  exact ⟨w, Prog.exec_both p k1⟩

/-! ### Arrays -/

variable {L : Layout V}

theorem mach_arr_both (dv : V) (hL : L.WF) (hagg : aggSize L ≤ 2 ^ 31) {w : ArrWorld V} {σ : ArrSpec.State V} (op : ArrOp V)
    (hR : ArrR L w σ ∧ Pos σ) (h : arrPre L σ op ∧ FitsA op) :
    ∃ w' out σ', Prog.both (fun w op => Mach.arrStep L w op) (fun w op => ArrWorld.step L w op) w op = .ok (w', out) ∧
      arrPost L σ op σ' out ∧ (ArrR L w' σ' ∧ Pos σ') := by
  obtain ⟨σ', out, hs⟩ := h.1
  obtain ⟨w1, k1, k2⟩ := arr_step_refines hL dv hR.1 hs
  have e := arrStep_eq hL hagg dv hR.1 hR.2 op hs h.2
  refine ⟨w1, out, σ', ?_, hs, k2, spec_pos hs hR.2 h.2⟩
  rw [Prog.both, if_pos e]
  exact e.trans k1

theorem fitsA_of {op : ArrOp V} (dv : V) (h : ∀ s N n v t cst, op = .new s N n v ∨ op = .copy s N t cst → 0 < N) : FitsA op := by
  cases op with
  | new s N n v => exact h s N n v 0 false (.inl rfl)
  | copy s N t cst => exact h s N 0 (fun _ _ => dv) t cst (.inr rfl)
  | _ => trivial

theorem run_pos : ∀ {ops : List (ArrOp V)} {σ σ' : ArrSpec.State V} {outs : List (ArrOut V)}, ArrSpec.run L σ ops = some (σ', outs) → Pos σ →
    (∀ op ∈ ops, FitsA op) → Pos σ'
  | [], _, _, _, h, hp, _ => by cases h; exact hp
  | op :: ops, σ, σ', outs, h, hp, hf => by
    rw [ArrSpec.run] at h
    cases e : ArrSpec.step L σ op with
    | none => rw [e] at h; cases h
    | some q =>
      obtain ⟨σ1, out⟩ := q
      rw [e] at h
      simp only at h
      cases e' : ArrSpec.run L σ1 ops with
      | none => rw [e'] at h; cases h
      | some q' =>
        rw [e'] at h
        obtain ⟨σ2, outs'⟩ := q'
        cases h
        exact run_pos e' (spec_pos e hp (hf op (by simp))) fun op' ho => hf op' (by simp [ho])

/-- **C81** for clients: they get on the machine the result which they get from lists. -/
theorem C81_client (dv : V) (hL : L.WF) (hagg : aggSize L ≤ 2 ^ 31) (p : Prog (ArrOp V) (ArrOut V) ρ) {σ : ArrSpec.State V} {r : ρ}
    (h : arrAllowed L p ArrSpec.start = some (σ, r)) (hpos : p.All fun op => ∀ s N n v t cst, op = .new s N n v ∨ op = .copy s N t cst → 0 < N) :
    ∃ w, p.exec (fun w op => Mach.arrStep L w op) ArrWorld.init = .ok (w, r) ∧
      p.exec (fun w op => ArrWorld.step L w op) ArrWorld.init = .ok (w, r) := by
  obtain ⟨hs, hall⟩ := arr_safe p h
  obtain ⟨w, r', a, k1, k2, -⟩ := Prog.exec_refines (R := fun w σ => ArrR L w σ ∧ Pos σ)
    (fun op hR h => mach_arr_both dv hL hagg op hR h) p ⟨ArrR.init L, fun _ _ _ h => by cases h⟩
    ((hs.and_all hpos).mono fun a op h => ⟨h.1, fitsA_of dv h.2⟩)
  obtain ⟨rfl, -⟩ := hall _ _ k2
  exact ⟨w, Prog.exec_both p k1⟩

/-- **C81** for threads: as `C86_array`, on the machine. -/
theorem C81_threads [DecidableEq ι] (dv : V) (hL : L.WF) (hagg : aggSize L ≤ 2 ^ 31) {ops : List (ArrOp V)} {σ : ArrSpec.State V}
    {outs : List (ArrOut V)} (hσ : ArrSpec.run L ArrSpec.start ops = some (σ, outs))
    (hops : ∀ op ∈ ops, ∀ s N n v t cst, op = .new s N n v ∨ op = .copy s N t cst → 0 < N)
    {w : ArrWorld V} (hw : ArrWorld.init.run L ops = .ok (w, outs)) (own : Nat → Option ι) (P : ι → Prog (ArrOp V) (ArrOut V) ρ)
    (hown : ∀ i, (P i).Within arrReads arrWrites own i) (hP : ∀ i, ∃ σ' r, arrAllowed L (P i) σ = some (σ', r))
    (hpos : ∀ i, (P i).All fun op => ∀ s N n v t cst, op = .new s N n v ∨ op = .copy s N t cst → 0 < N) (sched : List ι) :
    ∃ w' P', Prog.interleave (fun w op => Mach.arrStep L w op) sched P w = .ok (w', P') ∧
      Prog.interleave (fun w op => ArrWorld.step L w op) sched P w = .ok (w', P') ∧
      ∀ i r, P' i = .ret r → ∃ w1, (P i).exec (fun w op => Mach.arrStep L w op) w = .ok (w1, r) ∧
        ∀ s N l, own s = some i → (ListIs L w1 s N l ↔ ListIs L w' s N l) := by
  obtain ⟨w0, e0, hR⟩ := arr_run_refines hL dv ops (ArrR.init L) hσ
  rw [hw] at e0; injection e0 with e0; injection e0 with e0 _; subst e0
  have hp : Pos σ := run_pos hσ (fun _ _ _ h => by cases h) fun op ho => fitsA_of dv (hops op ho)
  have hsafe : ∀ i, (P i).Safe (fun a op => arrPre L a op ∧ FitsA op) (arrPost L) σ := fun i => by
    obtain ⟨σ', r, h⟩ := hP i
    exact ((arr_safe _ h).1.and_all (hpos i)).mono fun a op h => ⟨h.1, fitsA_of dv h.2⟩
  obtain ⟨w', P', k1, k2⟩ := C86_array hL dv hσ hw own P hown hP sched
  obtain ⟨w1, P1, -, -, m, -⟩ := Prog.interleave_refines (R := fun w σ => ArrR L w σ ∧ Pos σ) (own := own)
    (arr_local.and (Q := fun _ op => FitsA op) fun _ h => h) (fun op hR h => mach_arr_both dv hL hagg op hR h)
    P σ sched P (fun _ => σ) ⟨hR, hp⟩ hsafe hown (fun _ _ _ => rfl) (fun _ _ _ h => h)
  obtain ⟨m1, m2⟩ := Prog.interleave_both sched P m
  rw [k1] at m2; cases m2
  refine ⟨w', P', m1, k1, fun i r hr => ?_⟩
  obtain ⟨w1, e1, e2⟩ := k2 i r hr
  obtain ⟨w2, r2, -, n1, -⟩ := Prog.exec_refines (R := fun w σ => ArrR L w σ ∧ Pos σ) (fun op hR h => mach_arr_both dv hL hagg op hR h)
    (P i) ⟨hR, hp⟩ (hsafe i)
  obtain ⟨n2, n3⟩ := Prog.exec_both _ n1
  rw [e1] at n3; cases n3
  exact ⟨w1, n2, e2⟩

/-! ### Examples -/

theorem lastCell_all {q : Op V → Prop} (s : Nat) (d : Ext) (t : Cell V) (h1 : q (.new s d)) (h2 : q (.dims s))
    (h3 : ∀ x y z, q (.get s x y z [t])) : (lastCell s d t).All q := by
  refine ⟨h1, fun out => ?_⟩
  cases out <;> first
    | trivial
    | (refine ⟨h2, fun out => ?_⟩
       cases out with
       | triple e =>
         simp only
         split
         · refine ⟨h3 _ _ _, fun out => ?_⟩
           cases out with
           | cells l =>
             cases l with
             | nil => trivial
             | cons c l => cases l <;> trivial
           | _ => trivial
         · trivial
       | _ => trivial)

/-- A client which creates a grid of arbitrary dimensions and reads its last cell if there is one. -/
theorem lastCell_machine (d : Ext) : (lastCell 0 d demoCell).Safe
    (fun a op => Spec.Pre ⟨demoL, .dflt, false⟩ a op ∧ Fits a op) (Spec.Post ⟨demoL, .dflt, false⟩ 0) Spec.start :=
  ((lastCell_safe rfl d demoCell).and_all (lastCell_all (q := fun op => ∀ a, Fits a op) 0 d demoCell (fun _ => trivial) (fun _ => trivial)
    fun _ _ _ _ => trivial)).mono fun a _ h => ⟨h.1, h.2 a⟩

example (d : Ext) := C79_client (C := ⟨demoL, .dflt, false⟩) 0 demoL_WF (by decide)
  (fun _ _ h => ⟨(default_small h).px, (default_small h).py, (default_small h).pz, (default_small h).le⟩) _ (lastCell_machine d)

theorem lastElement_all {q : VecOp V → Prop} (s n : Nat) (t : Cell V) (h1 : q (.new s n)) (h2 : q (.size s))
    (h3 : ∀ x, q (.get s x t)) : (lastElement s n t).All q := by
  refine ⟨h1, fun out => ?_⟩
  cases out <;> first
    | trivial
    | (refine ⟨h2, fun out => ?_⟩
       cases out with
       | nat e =>
         simp only
         split
         · refine ⟨h3 _, fun out => ?_⟩
           cases out with
           | cells l =>
             cases l with
             | nil => trivial
             | cons c l => cases l <;> trivial
           | _ => trivial
         · trivial
       | _ => trivial)

/-- A client which creates a vector of any number of elements and reads the last one. -/
theorem lastElement_machine (n : Nat) : (lastElement 0 n demoCell).Safe (fun σ op => VecList.Pre vecC σ op ∧ OnElement σ op)
    (fun a op a' out => VecList.Post vecC 0 a op a' out) VecList.start :=
  ((lastElement_safe rfl rfl n demoCell).and_all (lastElement_all (q := fun op => ∀ σ, OnElement σ op) 0 n demoCell (fun _ => trivial)
    (fun _ => trivial) fun _ _ => trivial)).mono fun σ _ h => ⟨h.1, h.2 σ⟩

example (n : Nat) := C80_client (C := vecC) 0 vecC_WF (by decide) (fun _ _ h => uniform1_small (l := [8, 16]) (by decide) h) vecC_one
  vecC_roomy _ (lastElement_machine n)

/-- A client which creates a vector, copies it and changes the copy. -/
example : ∃ w c, Prog.exec (fun w op => Mach.vecStep vecC w op) (.call (.newFill 0 3 demoCell) fun _ => copier 1 0 fun _ _ => 5) VecWorld.init =
    .ok (w, some c) := by
  have h1 : VecSpec.step vecC 0 VecSpec.start (.newFill 0 3 demoCell) =
    some (World.upd VecSpec.start 0 (some (VecSpec.fill 3 8 demoCell)), .unit) := rfl
  have h : ∃ σ c, vecAllowed vecC 0 (.call (.newFill 0 3 demoCell) fun _ => copier 1 0 fun _ _ => 5) VecSpec.start = some (σ, some c) := by
    rw [vecAllowed, h1]
    exact copier_allowed (n := 2) rfl rfl rfl (by decide) (by decide) rfl _
  obtain ⟨σ, c, h⟩ := h
  have hall : Prog.All (fun op : VecOp Int => ∀ σ, FitsV σ op) (.call (.newFill 0 3 demoCell) fun _ => copier 1 0 fun _ _ => 5) := by
    refine ⟨fun _ => trivial, fun _ => ⟨fun _ => trivial, fun _ => ⟨fun _ => trivial, fun out => ?_⟩⟩⟩
    cases out with
    | nat n =>
      simp only
      split
      · refine ⟨fun _ => trivial, fun _ => ⟨fun _ => trivial, fun out => ?_⟩⟩
        cases out with
        | cells l =>
          cases l with
          | nil => trivial
          | cons c l => cases l <;> trivial
        | _ => trivial
      · trivial
    | _ => trivial
  obtain ⟨w, k, -⟩ := C80_client_all (C := vecC) 0 vecC_WF (by decide) (fun _ _ h => uniform1_small (l := [8, 16]) (by decide) h) vecC_one _ h
    (((vec_safe _ h).1.and_all hall).mono fun σ _ h => ⟨h.1, h.2 σ⟩)
  exact ⟨w, c, k⟩

theorem all_bind {Op Out ρ' : Type} {q : Op → Prop} {f : ρ → Prog Op Out ρ'} (hf : ∀ r, (f r).All q) :
    ∀ (p : Prog Op Out ρ), p.All q → (p.bind f).All q
  | .ret r, _ => hf r
  | .call _ k, h => ⟨h.1, fun out => all_bind hf (k out) (h.2 out)⟩

theorem all_loop {Op Out : Type} {q : Op → Prop} {body : Nat → ρ → Prog Op Out ρ} (hb : ∀ k s, (body k s).All q) :
    ∀ n b s, (Prog.loop body n b s).All q
  | 0, _, _ => trivial
  | n + 1, b, s => all_bind (fun r => all_loop hb n (b + 1) r) _ (hb b s)

theorem foldLoop_all {q : ArrOp V → Prop} (s : Nat) (t : Cell V) (f : ρ → Cell V → ρ) (z : ρ) (h1 : q (.size s)) (h2 : ∀ i, q (.get s i t)) :
    (foldLoop s t f z).All q := by
  refine ⟨h1, fun out => ?_⟩
  cases out with
  | nat n =>
    refine all_loop (fun k _ => ?_) n 0 z
    refine ⟨h2 _, fun out => ?_⟩
    cases out with
    | cells l =>
      cases l with
      | nil => trivial
      | cons c l => cases l <;> trivial
    | _ => trivial
  | _ => trivial

theorem filterLoop_all {q : ArrOp V → Prop} (s s' : Nat) (t : Cell V) (p : Cell V → Bool) (h1 : q (.size s)) (h2 : ∀ i, q (.get s i t))
    (h3 : ∀ c, q (.push s' c)) : (filterLoop s s' t p).All q := by
  refine ⟨h1, fun out => ?_⟩
  cases out with
  | nat n =>
    refine all_loop (fun k _ => ?_) n 0 ()
    refine ⟨h2 _, fun out => ?_⟩
    cases out with
    | cells l =>
      cases l with
      | nil => trivial
      | cons c l =>
        cases l with
        | nil =>
          simp only
          split
          · exact ⟨h3 _, fun _ => trivial⟩
          · trivial
        | cons _ _ => trivial
    | _ => trivial
  | _ => trivial

/-- A client that fills an array and then adds up what it reads. -/
example := C81_client 0 demoL_WF (by decide)
  (.call (.new 0 4 2 demoCell) fun _ => foldLoop 0 demoCell (fun (n : Int) c => n + c 0 0) 0 : Prog (ArrOp Int) (ArrOut Int) Int)
  (r := 2) rfl ⟨fun s N n v t cst h => by simp at h; omega, fun _ => foldLoop_all _ _ _ _ (by simp) (by simp)⟩

/-- Two threads filter one array into two others. -/
example : ∃ w : ArrWorld Int, ∀ sched : List Bool, ∃ w' P', Prog.interleave (fun w op => Mach.arrStep demoL w op) sched
      (fun i => filterLoop 0 (if i then 1 else 2) demoCell fun c => decide (c 0 0 = 5) == i) w = .ok (w', P') := by
  have hσ : ∃ σ outs, ArrSpec.run demoL ArrSpec.start
      [.new 0 4 1 demoCell, .push 0 (fun _ _ => 5), .push 0 (fun _ _ => 5), .new 1 4 0 demoCell, .new 2 4 0 demoCell] = some (σ, outs) ∧
      σ 0 = some (4, [demoCell, fun _ _ => 5, fun _ _ => 5]) ∧ σ 1 = some (4, []) ∧ σ 2 = some (4, []) := ⟨_, _, rfl, rfl, rfl, rfl⟩
  obtain ⟨σ, outs, hσ, h0, h1, h2⟩ := hσ
  obtain ⟨w, hw⟩ := C23_history demoL_WF 0 hσ
  refine ⟨w, fun sched => ?_⟩
  obtain ⟨w', P', k, -⟩ := C81_threads 0 demoL_WF (by decide) hσ
    (by intro op ho s N n v t cst h; simp only [List.mem_cons, List.not_mem_nil, or_false] at ho
        rcases ho with rfl | rfl | rfl | rfl | rfl <;> simp at h <;> omega) hw
    (fun u => if u = 1 then some true else if u = 2 then some false else none)
    (fun i => filterLoop 0 (if i then 1 else 2) demoCell fun c => decide (c 0 0 = 5) == i)
    (fun i => by
      cases i
      · exact filterLoop_within (own := fun u => if u = 1 then some true else if u = 2 then some false else none) rfl rfl _ _
      · exact filterLoop_within (own := fun u => if u = 1 then some true else if u = 2 then some false else none) rfl rfl _ _)
    (fun i => by
      cases i
      · obtain ⟨σ', h, -⟩ := filterLoop_spec (L := demoL) (show (0 : Nat) ≠ 2 by decide) demoCell
          (fun c => decide (c 0 0 = 5) == false) h0 h2 (by decide)
        exact ⟨σ', (), h⟩
      · obtain ⟨σ', h, -⟩ := filterLoop_spec (L := demoL) (show (0 : Nat) ≠ 1 by decide) demoCell
          (fun c => decide (c 0 0 = 5) == true) h0 h1 (by decide)
        exact ⟨σ', (), h⟩)
    (fun i => filterLoop_all _ _ _ _ (by simp) (by simp) (by simp)) sched
  exact ⟨w', P', k⟩

end
end Props
end LFA
