import Verif.Props.DevVec

/-
  Device grids if there is not enough device memory (C60).
-/
set_option linter.unusedSectionVars false
namespace LFA
namespace Dev
open ND
variable {V : Type} [DecidableEq V] (C : Cfg V)

/-- `resize` (soa_grid.hpp:134-158) as `Dev.resize`, where `avail h n` tells if `cudaMalloc` of `n` bytes succeeds while `h` is in use.
    `cuda_allocator::allocate` (cuda_allocator.hpp:49-54) does not check the result of `cudaMalloc`, so `ret` is indeterminate if it
    fails, and its use is undefined behaviour. -/
def resizeA (avail : Heap V → Nat → Bool) (g : Grid) (d : Ext) (h : Heap V) : ND (Option Exc × Grid × Heap V) :=
  if g.dim.x = d.x ∧ g.dim.y = d.y ∧ g.dim.z = d.z then pure (none, g, h)
  else do
    match ← destroyAndDeallocate C g h with
    | .error x => pure (some x, g, h)
    | .ok h =>
      let g1 : Grid := { g with dim := d }
      match selectSizes C.tr d with
      | .error x => pure (some x, g1, h)
      | .ok e =>
        let n := byteSizeOf C.L e
        if avail h n then
          let q := h.alloc n
          let g2 : Grid := { g1 with ex := some e.x, ey := some e.y, ez := some e.z, bs := some n, data := some q.1 }
          match ← callbackMut C g2 (fun e => constructCuda C.L g2.dim e) q.2 with
          | .error x => pure (some x, g2, q.2)
          | .ok h => pure (none, g2, h)
        else ND.ub .indet

/-- Executes one operation (soa_grid.hpp:87-396), as `Dev.step`. Simplification: there is always memory for the staging buffers. -/
def stepA (avail : Heap V → Nat → Bool) (D : World V) : Op V → ND (World V × Out V)
  -- soa_grid.hpp:87-94
  | .new s d =>
    match D.w.g s with
    | some _ => ND.ub .lifetime
    | none => do
      let q ← call D.cs (.new (s + 1) 0)
      let p ← call D.rs (.new (s + 1) 0)
      let r ← resizeA C avail ⟨⟨0, 0, 0⟩, none, none, none, none, none⟩ d D.w.h
      match r.1 with
      | none => pure (⟨⟨r.2.2, World.upd D.w.g s (some r.2.1)⟩, q.1, p.1⟩, .unit)
      | some x => do
        let p ← call p.1 (.del (s + 1))
        let q ← call q.1 (.del (s + 1))
        pure (⟨⟨r.2.2, D.w.g⟩, q.1, p.1⟩, .threw x)
  | .resize s d => do
    let g ← obj D s
    let r ← resizeA C avail g d D.w.h
    pure ({ D with w := ⟨r.2.2, World.upd D.w.g s (some r.2.1)⟩ }, match r.1 with
      | none => .unit
      | some x => .threw x)
  | op => step C D op

variable {C} {avail : Heap V → Nat → Bool} {dv : V} {ρ : Type}

/-- All outcomes of `m` are outcomes of `m'`, or the use of an indeterminate pointer. -/
def Sub {α : Type} (m m' : ND α) : Prop := ∀ r, m r → r = .error .indet ∨ m' r

theorem Sub.refl {α : Type} (m : ND α) : Sub m m := fun _ h => .inr h

theorem Sub.bind {α β : Type} {m m' : ND α} {f f' : α → ND β} (h : Sub m m') (hf : ∀ a, Sub (f a) (f' a)) : Sub (m >>= f) (m' >>= f') := by
  rintro r ⟨r1, h1, h2⟩
  rcases h r1 h1 with rfl | h1
  · exact .inl h2
  · cases r1 with
    | error u => exact .inr ⟨_, h1, h2⟩
    | ok a =>
      rcases hf a r h2 with h | h
      · exact .inl h
      · exact .inr ⟨_, h1, h⟩

theorem resizeA_sub (g : Grid) (d : Ext) (h : Heap V) : Sub (resizeA C avail g d h) (resize C g d h) := by
  unfold resizeA resize
  split
  · exact Sub.refl _
  · refine (Sub.refl _).bind fun r => ?_
    cases r with
    | error x => exact Sub.refl _
    | ok h1 =>
      simp only
      cases selectSizes C.tr d with
      | error x => exact Sub.refl _
      | ok e =>
        simp only
        split
        · exact Sub.refl _
        · exact fun r hr => .inl hr

theorem stepA_sub (D : World V) (op : Op V) : Sub (stepA C avail D op) (step C D op) := by
  cases op with
  | new s d =>
    unfold stepA step
    simp only
    cases hg : D.w.g s with
    | some g => exact Sub.refl _
    | none =>
      simp only
      exact (Sub.refl _).bind fun q => (Sub.refl _).bind fun p => (resizeA_sub _ _ _).bind fun r => Sub.refl _
  | resize s d =>
    unfold stepA step
    exact (Sub.refl _).bind fun g => (resizeA_sub _ _ _).bind fun r => Sub.refl _
  | _ => exact Sub.refl _

theorem exec_sub : ∀ (p : Prog (Op V) (Out V) ρ) (D : World V), Sub (p.execND (stepA C avail) D) (p.execND (step C) D)
  | .ret _, _ => Sub.refl _
  | .call op k, D => (stepA_sub D op).bind fun q => exec_sub (k q.2) q.1

/-- C60 for all clients, whatever memory the device has: each outcome is one which the client has on a device with enough memory, or
    undefined behaviour for lack of memory. Missing: there should be an exception instead (`C60_false_oom`), and what is missing in
    `C60_client_partial`. -/
theorem C60_oom_partial (hL : C.L.WF) (htr : ∀ m ∈ C.L, m.ty.triv = true) (avail : Heap V → Nat → Bool) (p : Prog (Op V) (Out V) ρ)
    (hp : p.Safe (fun a op => Spec.Pre C a op ∧ Limits op) (Post C dv) Spec.start) :
    ∀ r, p.execND (stepA C avail) World.init r → r = .error .indet ∨
      ∃ D x a, r = .ok (D, x) ∧ p.Allows (Post C dv) Spec.start x a ∧
        ((∀ s, D.w.g s = none) → (∀ id, D.w.h.blk id = none) ∧ (∀ q, D.cs.heap q = none) ∧ ∀ q, D.rs.heap q = none) := by
  intro r hr
  exact (exec_sub p _ r hr).imp id ((C60_client_partial hL htr p hp).2 r)

theorem resizeA_fails (hL : C.L.WF) {D : World V} {a : AWorld V} (hR : DR C D a) (dv : V) {s : Nat} {g : Grid} (hg : D.w.g s = some g) {d e : Ext}
    (hne : g.dim ≠ d) (he : selectSizes C.tr d = .ok e) (hav : ∀ h, avail h (byteSizeOf C.L e) = false) :
    Fails (resizeA C avail g d D.w.h) .indet := by
  have hpre : Spec.Pre C a (.destroy s) := by
    intro h
    have := hR.host.absent h
    rw [hg] at this; cases this
  obtain ⟨w', out, a', k1, -, -⟩ := step_refines hL dv hR.host _ hpre
  simp only [LFA.World.step, LFA.World.withG, hg] at k1
  unfold resizeA
  rw [if_neg fun h => hne (by cases g; cases d; rename_i x _ _ _ _ _ _ _ _; cases x; simp_all)]
  cases hd : Grid.dtor C g D.w.h with
  | ub u => rw [hd] at k1; cases k1
  | throw x h => rw [hd] at k1; cases k1
  | ok u h =>
    refine (destroy_ok hL (hR.dims hg) (dtor_ok hd)).fails ?_
    rintro _ rfl
    simp only [he, hav]
    exact Fails.ub _

/-- C60 is false on a device which does not have the memory: a grid which is given new dimensions uses an indeterminate pointer, whatever
    has happened before. -/
theorem C60_false_oom (hL : C.L.WF) (htr : ∀ m ∈ C.L, m.ty.triv = true) (p : Prog (Op V) (Out V) ρ)
    (hp : p.Safe (fun a op => Spec.Pre C a op ∧ Limits op) (Post C dv) Spec.start) {D : World V} {x : ρ}
    (hr : p.execND (stepA C avail) World.init (.ok (D, x))) {s : Nat} {g : Grid} (hg : D.w.g s = some g) {d e : Ext} (hne : g.dim ≠ d)
    (he : selectSizes C.tr d = .ok e) (hav : ∀ h, avail h (byteSizeOf C.L e) = false) :
    Fails (stepA C avail D (.resize s d)) .indet := by
  have hr' : p.execND (step C) World.init (.ok (D, x)) := (exec_sub p _ _ hr).resolve_left (fun h => nomatch h)
  have := Prog.execND_refines (R := DR C) (fun op hR h => step_all hL htr dv hR op h.1 h.2) p (DR.init (C := C)) hp
  obtain ⟨q, e1, a, -, hR⟩ := this.2 _ hr'
  cases e1
  unfold stepA
  refine (hR.obj hg).fails ?_
  rintro _ rfl
  exact (resizeA_fails hL hR dv hg hne he hav).bind

/-- So does a grid which is constructed. -/
theorem C60_false_oom_new (hL : C.L.WF) (htr : ∀ m ∈ C.L, m.ty.triv = true) (p : Prog (Op V) (Out V) ρ)
    (hp : p.Safe (fun a op => Spec.Pre C a op ∧ Limits op) (Post C dv) Spec.start) {D : World V} {x : ρ}
    (hr : p.execND (stepA C avail) World.init (.ok (D, x))) {s : Nat} (hg : D.w.g s = none) {d e : Ext} (hne : d ≠ ⟨0, 0, 0⟩)
    (he : selectSizes C.tr d = .ok e) (hav : ∀ h, avail h (byteSizeOf C.L e) = false) :
    Fails (stepA C avail D (.new s d)) .indet := by
  have hr' : p.execND (step C) World.init (.ok (D, x)) := (exec_sub p _ _ hr).resolve_left (fun h => nomatch h)
  have := Prog.execND_refines (R := DR C) (fun op hR h => step_all hL htr dv hR op h.1 h.2) p (DR.init (C := C)) hp
  obtain ⟨q, e1, a, -, hR⟩ := this.2 _ hr'
  cases e1
  have hlv : live a s = false := by
    have := hR.host.slots s
    rw [hg] at this
    cases ha : a s with
    | absent => simp [live, ha]
    | _ => rw [ha] at this; obtain ⟨_, h, _⟩ := this; cases h
  unfold stepA
  simp only [hg]
  refine (hR.cells.new hlv).fails fun q hq => ?_
  refine (hR.raw.new hlv).fails fun p hp => ?_
  refine Fails.bind ?_
  unfold resizeA
  rw [if_neg fun h => hne (by obtain ⟨x, y, z⟩ := d; obtain ⟨h1, h2, h3⟩ := h; simp only at h1 h2 h3; subst h1 h2 h3; rfl)]
  refine (Always.pure (P := fun r => r = .ok D.w.h) rfl).fails ?_
  rintro _ rfl
  simp only [he, hav]
  exact Fails.ub _

/-- A device with 100 bytes cannot hold a grid, and nothing tells. -/
example : Fails (stepA demoC (fun _ n => decide (n ≤ 100)) World.init (.new 0 ⟨3, 2, 2⟩)) .indet :=
  C60_false_oom_new (dv := 0) (x := ()) demoL_WF demoL_triv (.ret ()) trivial rfl rfl (by decide) (e := ⟨4, 2, 2⟩) rfl (fun _ => by decide)

end Dev
end LFA
