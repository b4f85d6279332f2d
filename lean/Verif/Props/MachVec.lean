import Verif.MachVecProof
import Verif.SoaVectorList
import Verif.Props.SoaVector
import Verif.Props.MachGrid

/-
  C80: programs over soa_vector which respect the contracts of their operations neither overflow nor wrap on a 64-bit machine,
  and compute there what they compute with unbounded integers.
-/
set_option linter.unusedSectionVars false
namespace LFA.Props
open Mach

section
variable {V : Type} [DecidableEq V]

/-- Along the whole program accessors are positioned inside of the buffers (`Mach.FitsV`). -/
def FitsAll (C : Cfg V) (dv : V) : VecSpec.State V → List (VecOp V) → Prop
  | _, [] => True
  | σ, op :: ops => FitsV σ op ∧ ∀ σ' out, VecSpec.step C dv σ op = some (σ', out) → FitsAll C dv σ' ops

theorem mach_vec_run {C : Cfg V} {dv : V} (hL : C.L.WF) (hagg : aggSize C.L ≤ 2 ^ 31)
    (hsm : ∀ d e, selectSizes C.tr d = .ok e → Small e) (h1 : OneD C.tr) :
    ∀ (ops : List (VecOp V)) {w : VecWorld V} {σ σ' : VecSpec.State V} {outs : List (ArrOut V)}, VR C w σ →
      VecSpec.run C dv σ ops = some (σ', outs) → FitsAll C dv σ ops → Mach.vecRun C w ops = w.run C ops
  | [], _, _, _, _, _, _, _ => rfl
  | op :: ops, w, σ, σ', outs, hR, hs, hfit => by
    simp only [VecSpec.run] at hs
    cases h2 : VecSpec.step C dv σ op with
    | none => rw [h2] at hs; cases hs
    | some p =>
      obtain ⟨σ1, out⟩ := p
      rw [h2] at hs
      simp only at hs
      cases h3 : VecSpec.run C dv σ1 ops with
      | none => rw [h3] at hs; cases hs
      | some q =>
        obtain ⟨w1, k1, k2⟩ := vec_step_refines hL h1 dv hR op h2
        have k3 := vecStep_eq hL hagg hsm h1 dv hR op h2 hfit.1
        simp only [Mach.vecRun, VecWorld.run, k3, k1]
        rw [mach_vec_run hL hagg hsm h1 ops k2 (σ' := q.1) (outs := q.2) h3 (hfit.2 σ1 out h2)]
        rfl

/-- **C80** (extents as selected by the traits are positive and hold at most 2^31 cells, those of a vector have length one in y and
z, structs have at most 2^31 bytes): a program over any number of vectors which respects the contracts, copies and assignments
included, runs through on the machine, i.e. nothing overflows, wraps or leaves a buffer; its results are those of the
specification; and it reaches the very state which unbounded integers reach. -/
theorem C80_run {C : Cfg V} (dv : V) (hL : C.L.WF) (hagg : aggSize C.L ≤ 2 ^ 31)
    (hsm : ∀ d e, selectSizes C.tr d = .ok e → 0 < e.x ∧ 0 < e.y ∧ 0 < e.z ∧ e.x * e.y * e.z ≤ 2 ^ 31) (h1 : OneD C.tr)
    (ops : List (VecOp V)) {σ : VecSpec.State V} {outs : List (ArrOut V)}
    (hs : VecSpec.run C dv VecSpec.start ops = some (σ, outs)) (hfit : FitsAll C dv VecSpec.start ops) :
    ∃ w, Mach.vecRun C VecWorld.init ops = .ok (w, outs) ∧ VecWorld.init.run C ops = .ok (w, outs) := by
  obtain ⟨w, k1, -⟩ := vec_run_refines hL h1 dv ops VR.init hs
  refine ⟨w, ?_, k1⟩
  rw [mach_vec_run hL hagg (fun d e h => ⟨(hsm d e h).1, (hsm d e h).2.1, (hsm d e h).2.2.1, (hsm d e h).2.2.2⟩) h1 ops VR.init hs
    hfit]
  exact k1

/-- **C80** for types without size traits. -/
theorem C80_default (L : Layout V) (asym : Bool) (dv : V) (hL : L.WF) (hagg : aggSize L ≤ 2 ^ 31) (ops : List (VecOp V))
    {σ : VecSpec.State V} {outs : List (ArrOut V)} (hs : VecSpec.run ⟨L, .dflt, asym⟩ dv VecSpec.start ops = some (σ, outs))
    (hfit : FitsAll ⟨L, .dflt, asym⟩ dv VecSpec.start ops) :
    ∃ w, Mach.vecRun ⟨L, .dflt, asym⟩ VecWorld.init ops = .ok (w, outs)
      ∧ VecWorld.init.run ⟨L, .dflt, asym⟩ ops = .ok (w, outs) :=
  C80_run (C := ⟨L, .dflt, asym⟩) dv hL hagg
    (fun _ _ h => ⟨(default_small h).px, (default_small h).py, (default_small h).pz, (default_small h).le⟩) OneD.dflt ops hs hfit

/-- The accessor of a user's functor is positioned on an element before it is shifted to a neighbour. -/
def OnElement (σ : VecList.State V) : VecOp V → Prop
  | .poke s x _ _ _ _ | .peek s x _ _ _ => ∀ l, σ s = some l → 0 ≤ x ∧ x < l.length
  | _ => True

/-- The operations respect their contracts (`VecList.Legal`), and accessors are positioned on elements. -/
def LegalVM (C : Cfg V) (dv : V) : VecList.State V → List (VecOp V) → Prop
  | _, [] => True
  | σ, op :: ops => VecList.Pre C σ op ∧ OnElement σ op ∧ ∀ σ' out, VecList.Post C dv σ op σ' out → LegalVM C dv σ' ops

/-- **C80**, on the machine soa_vectors behave like lists of structs: programs within the contracts of lists run through, and what
they observe is what lists show. -/
theorem C80_lists {C : Cfg V} (dv : V) (hL : C.L.WF) (hagg : aggSize C.L ≤ 2 ^ 31)
    (hsm : ∀ d e, selectSizes C.tr d = .ok e → 0 < e.x ∧ 0 < e.y ∧ 0 < e.z ∧ e.x * e.y * e.z ≤ 2 ^ 31) (h1 : OneD C.tr)
    (hr : ∀ n e, selectSizes C.tr ⟨n, 1, 1⟩ = .ok e → 5 ≤ e.x) (ops : List (VecOp V))
    (hleg : LegalVM C dv VecList.start ops) :
    ∃ w outs σ, Mach.vecRun C VecWorld.init ops = .ok (w, outs) ∧ VecList.Run C dv VecList.start ops outs σ := by
  have hsm' : ∀ d e, selectSizes C.tr d = .ok e → Small e :=
    fun d e h => ⟨(hsm d e h).1, (hsm d e h).2.1, (hsm d e h).2.2.1, (hsm d e h).2.2.2⟩
  have hr' : Roomy C.tr := fun n e h => ⟨hr n e h, by
    have h3 := (hsm' _ _ h).le
    obtain ⟨hy, hz⟩ := h1 n e h
    rw [hy, hz, Nat.mul_one, Nat.mul_one] at h3
    omega⟩
  have key : ∀ (ops : List (VecOp V)) {w : VecWorld V} {τ : VecSpec.State V} {σ : VecList.State V}, VR C w τ → VL C τ σ →
      LegalVM C dv σ ops → ∃ w' outs σ', Mach.vecRun C w ops = .ok (w', outs) ∧ VecList.Run C dv σ ops outs σ' := by
    intro ops
    induction ops with
    | nil => intro w τ σ _ _ _; exact ⟨w, [], σ, rfl, rfl, rfl⟩
    | cons op ops ih =>
      intro w τ σ hR h hleg
      obtain ⟨hpre, hon, hnext⟩ := hleg
      obtain ⟨τ1, out, σ1, e1, e2, e3⟩ := list_step h1 hr' dv hR h op hpre
      obtain ⟨w1, e4, hR1⟩ := vec_step_refines hL h1 dv hR op e1
      have on : ∀ {s : Nat} {x : Int} {l : List (Cell V)}, σ s = some l → 0 ≤ x ∧ x < l.length →
          ∀ a, τ s = some a → 0 ≤ x ∧ x < a.ext := by
        intro s x l hl hx a ha
        obtain ⟨a', ha', hlist⟩ := h.vec hl
        rw [ha] at ha'; cases ha'
        have := hlist.len
        have := hlist.fit
        exact ⟨hx.1, by omega⟩
      have hfit : FitsV τ op := by
        cases op with
        | poke s x X r k v => obtain ⟨l, m, hl, -⟩ := hpre; exact on hl (hon l hl)
        | peek s x X r k => obtain ⟨l, m, hl, -⟩ := hpre; exact on hl (hon l hl)
        | _ => trivial
      have e5 := vecStep_eq hL hagg hsm' h1 dv hR op e1 hfit
      obtain ⟨w', outs, σ', k1, k2⟩ := ih hR1 e3 (hnext σ1 out e2)
      exact ⟨w', out :: outs, σ', by simp only [Mach.vecRun, e5, e4, k1], out, outs, σ1, rfl, e2, k2⟩
  exact key ops VR.init VL.init hleg

/-- **C80**, lists of types without size traits. -/
theorem C80_lists_default (L : Layout V) (asym : Bool) (dv : V) (hL : L.WF) (hagg : aggSize L ≤ 2 ^ 31) (ops : List (VecOp V))
    (hleg : LegalVM ⟨L, .dflt, asym⟩ dv VecList.start ops) :
    ∃ w outs σ, Mach.vecRun ⟨L, .dflt, asym⟩ VecWorld.init ops = .ok (w, outs)
      ∧ VecList.Run ⟨L, .dflt, asym⟩ dv VecList.start ops outs σ :=
  C80_lists (C := ⟨L, .dflt, asym⟩) dv hL hagg
    (fun _ _ h => ⟨(default_small h).px, (default_small h).py, (default_small h).pz, (default_small h).le⟩) OneD.dflt
    (fun n e h => (Roomy.dflt n e h).1) ops hleg

/-- **C80 needs an element to pop**: whatever the vector, if it is empty then its count wraps. -/
theorem C80_needs_element (C : Cfg V) (w : VecWorld V) (s : Nat) (g : Grid) (td : Cell V) (hs : w.v s = some ⟨g, 0⟩) :
    Mach.vecStep C w (.pop s td) = .error .oob := by
  have : Mach.size (-1) = none := by decide
  simp only [Mach.vecStep, VecWorld.withV, hs, vecPop]
  rw [show (((0 : Nat) : Int) - 1) = -1 by rfl, this]
  rfl

end

/-- **C80 needs small extents**: with a size table whose smallest size is huge, a vector of one element overflows where unbounded
integers do not. -/
theorem C80_needs_small :
    (∃ σ outs, VecSpec.run ⟨demoL, .uniform1 [2 ^ 62], false⟩ 0 VecSpec.start [.new 0 1] = some (σ, outs))
    ∧ (∃ w outs, VecWorld.init.run ⟨demoL, .uniform1 [2 ^ 62], false⟩ [.new 0 1] = .ok (w, outs))
    ∧ Mach.vecRun ⟨demoL, .uniform1 [2 ^ 62], false⟩ VecWorld.init [.new 0 1] = .error .oob := by
  have hsel : selectSizes (.uniform1 [2 ^ 62]) ⟨1, 1, 1⟩ = .ok ⟨2 ^ 62, 1, 1⟩ := by decide
  have hs : ∃ σ outs, VecSpec.run ⟨demoL, .uniform1 [2 ^ 62], false⟩ 0 VecSpec.start [.new 0 1] = some (σ, outs) := by
    simp only [VecSpec.run, VecSpec.step, VecSpec.create, VecSpec.start, hsel]
    exact ⟨_, _, rfl⟩
  refine ⟨hs, ?_, ?_⟩
  · obtain ⟨σ, outs, hs⟩ := hs
    obtain ⟨w, k1, -⟩ := vec_run_refines (C := ⟨demoL, .uniform1 [2 ^ 62], false⟩) demoL_WF (OneD.uniform1 _) 0 _ VR.init hs
    exact ⟨w, outs, k1⟩
  · have hb : Mach.byteSize demoL ⟨2 ^ 62, 1, 1⟩ = none := by decide
    have h1 : ∀ (bytes : Ext → Option Int), bytes ⟨2 ^ 62, 1, 1⟩ = none → ∀ h : Heap Int,
        resizeWith ⟨demoL, .uniform1 [2 ^ 62], false⟩ bytes ⟨⟨0, 0, 0⟩, none, none, none, none, none⟩ ⟨1, 1, 1⟩ h
          = .ub overflow := by
      intro bytes hb h
      unfold resizeWith
      rw [if_neg (by simp)]
      simp only [destroyAndDeallocate, Res.withGrid, Res.bind, hsel, hb]
    simp only [Mach.vecRun, Mach.vecStep, VecWorld.init, vecNew, Mach.new, Mach.resize, h1 _ hb, VecWorld.ofCtor, overflow]

/-- Size tables whose sizes are positive and at most 2^31 meet the hypotheses. -/
theorem uniform1_small {l : List Nat} (hl : ∀ s ∈ l, 0 < s ∧ s ≤ 2 ^ 31) {d e : Ext} (h : selectSizes (.uniform1 l) d = .ok e) :
    0 < e.x ∧ 0 < e.y ∧ 0 < e.z ∧ e.x * e.y * e.z ≤ 2 ^ 31 := by
  simp only [selectSizes, selectUniform1] at h
  by_cases hy : d.y = 1
  · by_cases hz : d.z = 1
    · cases hf : firstFit d.x l with
      | none => simp [hf, hy, hz] at h
      | some s =>
        simp [hf, hy, hz] at h
        obtain ⟨h1, h2⟩ := hl s (firstFit_mem hf)
        rw [← h]
        exact ⟨h1, Nat.one_pos, Nat.one_pos, by simpa using h2⟩
    · simp [hy, hz] at h
  · simp [hy] at h

/-! ### Concrete cases -/

theorem vec_legalVM : LegalVM vecC 0 VecList.start
    [.newFill 0 8 demoCell, .push 0 (fun _ _ => 8), .poke 0 7 1 0 0 5, .peek 0 8 (-1) 0 0] := by
  have e8 : selectSizes vecC.tr ⟨8, 1, 1⟩ = .ok ⟨8, 1, 1⟩ := rfl
  have g8 : selectSizes vecC.tr ⟨grow 8, 1, 1⟩ = .ok ⟨16, 1, 1⟩ := rfl
  have hm : vecC.L[0]? = some ⟨⟨4, true⟩, none, 0⟩ := rfl
  refine ⟨⟨rfl, .inl rfl⟩, trivial, fun σ1 out hp => ?_⟩
  simp only [VecList.Post, VecList.Alloc, e8] at hp
  obtain ⟨-, rfl⟩ := hp
  refine ⟨⟨_, rfl⟩, trivial, fun σ2 out hp => ?_⟩
  obtain ⟨l, hl, ⟨_, rfl⟩ | ⟨e, h, k, _⟩⟩ := hp
  · cases hl
    refine ⟨⟨_, _, rfl, hm, by decide, by decide, by decide⟩, fun l hl => ?_, fun σ3 out hp => ?_⟩
    · cases hl; decide
    obtain ⟨l, c, hl, hc, -, rfl⟩ := hp
    cases hl
    refine ⟨⟨_, _, rfl, hm, by decide, by decide, by simp⟩, fun l hl => ?_, fun _ _ _ => trivial⟩
    cases hl
    simp
  · cases hl; simp only [List.length_replicate] at k; rw [g8] at k; cases k

/-- Instance of `C80_lists`: a vector is filled, outgrows its buffer, and neighbours are written and read. -/
example : ∃ w outs σ, Mach.vecRun vecC VecWorld.init
      [.newFill 0 8 demoCell, .push 0 (fun _ _ => 8), .poke 0 7 1 0 0 5, .peek 0 8 (-1) 0 0] = .ok (w, outs)
    ∧ VecList.Run vecC 0 VecList.start
      [.newFill 0 8 demoCell, .push 0 (fun _ _ => 8), .poke 0 7 1 0 0 5, .peek 0 8 (-1) 0 0] outs σ := by
  refine C80_lists 0 vecC_WF (by decide) ?_ vecC_one (fun n e h => (vecC_roomy n e h).1) _ vec_legalVM
  exact fun d e h => uniform1_small (l := [8, 16]) (by decide) h

theorem vec_fits : FitsAll vecC 0 VecSpec.start
    [.newFill 0 8 demoCell, .copy 1 0, .new 2 3, .assign 2 0, .push 2 demoCell, .pop 2 demoCell, .get 1 7 demoCell, .destroy 0] := by
  simp [FitsAll, FitsV]

/-- Instance of `C80_run`: copies and assignments. -/
example : (VecSpec.run vecC 0 VecSpec.start
    [.newFill 0 8 demoCell, .copy 1 0, .new 2 3, .assign 2 0, .push 2 demoCell, .pop 2 demoCell, .get 1 7 demoCell,
      .destroy 0]).isSome = true := by decide

end LFA.Props
