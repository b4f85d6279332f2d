/-
  C64 for grids with arbitrary sizes, e.g. those of LIBFLATARRAY_CUSTOM_SIZES.
-/
import Verif.Props.OmpKernel
import Verif.Props.SizedKernel
set_option linter.unusedSectionVars false
namespace LFA.GK
open SV (Expr Entry FEnv Mem Writes FOps Transfers Reqs Faithful lane)
open Thr (Loc Ref InGrid ValueIs InA valA inA_iff)

variable {V : Type} [DecidableEq V] {C : Cfg V} {dv : V} {w : Nat}

theorem float_sizes_parallel (hL : C.L.WF) (c : SV.Cfg) (e1 e : Entry 32) (he1 : e1 ∈ SV.floatVecs c) (h1 : e1.impl.N = 1)
    (he : e ∈ SV.floatVecs c) (E : FEnv) (B : Bits 32 V) (base : Nat → Nat) (hbase : ∀ id, 4096 ∣ base id) (K : Stencil 32)
    (hk : K.code.only (SV.exactDiv c e.impl.N) (!SV.usesNeon c e.impl.N) (SV.hasFloatCmp c e.impl.N) = true) (s o : Nat)
    (hsafe : K.ParSafe s o) (ds dt es et : Ext) (hes : selectSizes C.tr ds = .ok es) (het : selectSizes C.tr dt = .ok et)
    (hsym : C.asym = true ∨ ds = dt) (hal : K.Suited C 4 es et e.impl.N (SV.floatReqs c e.impl.N))
    (t : Peel.CTy) (b : Box) (xe : Int) (hruns : Runs t e.impl.N b.x0 b.x1 xe) (n : Nat) (zs : Nat → List Int) (hz : Splits b n zs)
    (W : World V) (hV : Valid C dv W) (hds : DimsAre C W s ds) (hdt : DimsAre C W o dt) (hns : ds ≠ ⟨0, 0, 0⟩) (hnt : dt ≠ ⟨0, 0, 0⟩)
    (σ : Loc → V) (hσ : ∀ l, InGrid C W l → ValueIs C W l (σ l)) (hin : K.Inside B s o { b with x1 := xe } (InGrid C W) σ) :
    Parallel C dv B base E K t e1 e b n zs W s o es et (K.apply B E.f32 s o { b with x1 := xe } σ) := by
  refine parallel_ok hL B base E (float_hardware c e1 e he1 h1 he E K hk) hsafe t hruns hes het hsym
    (fun ids idt => hal.accesses (by decide) ?_ ?_ ?_ hbase b ids idt) hz hV hds hdt hns hnt hσ hin
  · rw [h1]; cases K.mode <;> rfl
  · rw [h1]; cases K.mode <;> rfl
  · have : ∀ M : Mode, ∀ n ∈ [1, 2, 4, 8, 16, 32], M.loadReq (SV.floatReqs c n) ∣ n * 4 := by intro M; cases c <;> cases M <;> decide
    exact this _ _ (SV.float_arity c e he)

/-- C64 for `float`s in grids with any sizes which suit the accesses. Missing: as in `C64_float_partial`, but for the sizes. -/
theorem C64_float_sizes_partial (hL : C.L.WF) (c : SV.Cfg) (e1 e : Entry 32) (he1 : e1 ∈ SV.floatVecs c) (h1 : e1.impl.N = 1)
    (he : e ∈ SV.floatVecs c) (E : FEnv) (B : Bits 32 V) (base : Nat → Nat) (hbase : ∀ id, 4096 ∣ base id) (K : Stencil 32)
    (hk : K.code.only (SV.exactDiv c e.impl.N) (!SV.usesNeon c e.impl.N) (SV.hasFloatCmp c e.impl.N) = true) (s o : Nat)
    (hsafe : K.ParSafe s o) (ds dt es et : Ext) (hes : selectSizes C.tr ds = .ok es) (het : selectSizes C.tr dt = .ok et)
    (hsym : C.asym = true ∨ ds = dt) (hal : K.Suited C 4 es et e.impl.N (SV.floatReqs c e.impl.N))
    (t : Peel.CTy) (ht : (e.impl.N : Int) ∣ t.hi) (b : Box) (hx : 0 ≤ b.x0) (hstop : b.x1 < t.hi)
    (q : Int) (hq : b.x0 ≤ e.impl.N * q) (hq' : e.impl.N * q ≤ b.x1) (n : Nat) (zs : Nat → List Int) (hz : Splits b n zs)
    (W : World V) (hV : Valid C dv W) (hds : DimsAre C W s ds) (hdt : DimsAre C W o dt) (hns : ds ≠ ⟨0, 0, 0⟩) (hnt : dt ≠ ⟨0, 0, 0⟩)
    (σ : Loc → V) (hσ : ∀ l, InGrid C W l → ValueIs C W l (σ l)) (hin : K.Inside B s o b (InGrid C W) σ) :
    Parallel C dv B base E K t e1 e b n zs W s o es et (K.apply B E.f32 s o b σ) := by
  have hpos : 0 < e.impl.N := by
    have : ∀ n ∈ [1, 2, 4, 8, 16, 32], 0 < n := by decide
    exact this _ (SV.float_arity c e he)
  exact float_sizes_parallel hL c e1 e he1 h1 he E B base hbase K hk s o hsafe ds dt es et hes het hsym hal t b b.x1
    (runs_peeled (C37_partial t e.impl.N hpos ht b.x0 b.x1 hx hstop q hq hq')) n zs hz W hV hds hdt hns hnt σ hσ hin

/-- C64 for `double`s in grids with any sizes which suit the accesses. -/
theorem C64_double_sizes_partial (hL : C.L.WF) (c : SV.Cfg) (e1 e : Entry 64) (he1 : e1 ∈ SV.doubleVecs c) (h1 : e1.impl.N = 1)
    (he : e ∈ SV.doubleVecs c) (E : FEnv) (B : Bits 64 V) (base : Nat → Nat) (hbase : ∀ id, 4096 ∣ base id) (K : Stencil 64)
    (hk : K.code.only (!decide (c = .qpx ∧ 2 < e.impl.N)) (!decide (c = .qpx ∧ 2 < e.impl.N)) (SV.hasDoubleCmp c e.impl.N) = true)
    (s o : Nat) (hsafe : K.ParSafe s o)
    (ds dt es et : Ext) (hes : selectSizes C.tr ds = .ok es) (het : selectSizes C.tr dt = .ok et) (hsym : C.asym = true ∨ ds = dt)
    (hal : K.Suited C 8 es et e.impl.N (SV.doubleReqs c e.impl.N))
    (t : Peel.CTy) (ht : (e.impl.N : Int) ∣ t.hi) (b : Box) (hx : 0 ≤ b.x0) (hstop : b.x1 < t.hi)
    (q : Int) (hq : b.x0 ≤ e.impl.N * q) (hq' : e.impl.N * q ≤ b.x1) (n : Nat) (zs : Nat → List Int) (hz : Splits b n zs)
    (W : World V) (hV : Valid C dv W) (hds : DimsAre C W s ds) (hdt : DimsAre C W o dt) (hns : ds ≠ ⟨0, 0, 0⟩) (hnt : dt ≠ ⟨0, 0, 0⟩)
    (σ : Loc → V) (hσ : ∀ l, InGrid C W l → ValueIs C W l (σ l)) (hin : K.Inside B s o b (InGrid C W) σ) :
    Parallel C dv B base E K t e1 e b n zs W s o es et (K.apply B E.f64 s o b σ) := by
  have hpos : 0 < e.impl.N := by
    have : ∀ n ∈ [1, 2, 4, 8, 16, 32], 0 < n := by decide
    exact this _ (SV.double_arity c e he)
  refine parallel_ok hL B base E (double_hardware c e1 e he1 h1 he E K hk) hsafe t
    (runs_peeled (C37_partial t e.impl.N hpos ht b.x0 b.x1 hx hstop q hq hq')) hes het hsym
    (fun ids idt => hal.accesses (by decide) ?_ ?_ ?_ hbase b ids idt) hz hV hds hdt hns hnt hσ hin
  · rw [h1]; cases c <;> cases K.mode <;> rfl
  · rw [h1]; cases c <;> cases K.mode <;> rfl
  · have : ∀ M : Mode, ∀ n ∈ [1, 2, 4, 8, 16, 32], M.loadReq (SV.doubleReqs c n) ∣ n * 8 := by intro M; cases c <;> cases M <;> decide
    exact this _ _ (SV.double_arity c e he)

/-- C64 for time steps on `float`s, in grids with any sizes which suit the accesses. -/
theorem C64_float_sizes_steps_partial (hL : C.L.WF) (c : SV.Cfg) (e1 e : Entry 32) (he1 : e1 ∈ SV.floatVecs c)
    (h1 : e1.impl.N = 1) (he : e ∈ SV.floatVecs c) (E : FEnv) (B : Bits 32 V) (base : Nat → Nat) (hbase : ∀ id, 4096 ∣ base id)
    (K : Stencil 32) (hk : K.code.only (SV.exactDiv c e.impl.N) (!SV.usesNeon c e.impl.N) (SV.hasFloatCmp c e.impl.N) = true)
    (s o : Nat) (hso : s ≠ o) (hsafe : K.ParSafe s o) (d ex : Ext) (hex : selectSizes C.tr d = .ok ex)
    (hal : K.Suited C 4 ex ex e.impl.N (SV.floatReqs c e.impl.N))
    (t : Peel.CTy) (ht : (e.impl.N : Int) ∣ t.hi) (b : Box) (hx : 0 ≤ b.x0) (hstop : b.x1 < t.hi)
    (q : Int) (hq : b.x0 ≤ e.impl.N * q) (hq' : e.impl.N * q ≤ b.x1) (n : Nat) (zs : Nat → List Int) (hz : Splits b n zs)
    (W : World V) (hV : Valid C dv W) (hds : DimsAre C W s d) (hdt : DimsAre C W o d) (hd : d ≠ ⟨0, 0, 0⟩)
    (σ : Loc → V) (hσ : ∀ l, InGrid C W l → ValueIs C W l (σ l)) (hin : K.Reach s o b (InGrid C W)) (hnum : K.Numbers B s o (InGrid C W) σ)
    (scheds : List (List Nat)) :
    (∀ r, timeStepsPar C B base E K t e1 e b n zs s o scheds W = some r →
      Yields C dv W ((fun σ => exchange s o (K.apply B E.f32 s o b σ))^[scheds.length] σ) r) ∧
    ∃ scheds' : List (List Nat), scheds'.length = scheds.length ∧ (∀ i (h : i < scheds.length) (h' : i < scheds'.length), scheds[i] <+: scheds'[i]) ∧
      (timeStepsPar C B base E K t e1 e b n zs s o scheds' W).isSome = true :=
  steps_par_ok hL B base E K e1 e E.f32 hso b t hd (fun W σ hV hs ho hσ hin => C64_float_sizes_partial hL c e1 e he1 h1 he E B base hbase K hk s o
    hsafe d d ex ex hex hex (.inr rfl) hal t ht b hx hstop q hq hq' n zs hz W hV hs ho hd hd σ hσ hin) scheds W σ hV hds hdt hσ hin hnum

/-- C64 for time steps on `double`s, in grids with any sizes which suit the accesses. -/
theorem C64_double_sizes_steps_partial (hL : C.L.WF) (c : SV.Cfg) (e1 e : Entry 64) (he1 : e1 ∈ SV.doubleVecs c)
    (h1 : e1.impl.N = 1) (he : e ∈ SV.doubleVecs c) (E : FEnv) (B : Bits 64 V) (base : Nat → Nat) (hbase : ∀ id, 4096 ∣ base id)
    (K : Stencil 64) (hk : K.code.only (!decide (c = .qpx ∧ 2 < e.impl.N)) (!decide (c = .qpx ∧ 2 < e.impl.N))
      (SV.hasDoubleCmp c e.impl.N) = true)
    (s o : Nat) (hso : s ≠ o) (hsafe : K.ParSafe s o) (d ex : Ext) (hex : selectSizes C.tr d = .ok ex)
    (hal : K.Suited C 8 ex ex e.impl.N (SV.doubleReqs c e.impl.N))
    (t : Peel.CTy) (ht : (e.impl.N : Int) ∣ t.hi) (b : Box) (hx : 0 ≤ b.x0) (hstop : b.x1 < t.hi)
    (q : Int) (hq : b.x0 ≤ e.impl.N * q) (hq' : e.impl.N * q ≤ b.x1) (n : Nat) (zs : Nat → List Int) (hz : Splits b n zs)
    (W : World V) (hV : Valid C dv W) (hds : DimsAre C W s d) (hdt : DimsAre C W o d) (hd : d ≠ ⟨0, 0, 0⟩)
    (σ : Loc → V) (hσ : ∀ l, InGrid C W l → ValueIs C W l (σ l)) (hin : K.Reach s o b (InGrid C W)) (hnum : K.Numbers B s o (InGrid C W) σ)
    (scheds : List (List Nat)) :
    (∀ r, timeStepsPar C B base E K t e1 e b n zs s o scheds W = some r →
      Yields C dv W ((fun σ => exchange s o (K.apply B E.f64 s o b σ))^[scheds.length] σ) r) ∧
    ∃ scheds' : List (List Nat), scheds'.length = scheds.length ∧ (∀ i (h : i < scheds.length) (h' : i < scheds'.length), scheds[i] <+: scheds'[i]) ∧
      (timeStepsPar C B base E K t e1 e b n zs s o scheds' W).isSome = true :=
  steps_par_ok hL B base E K e1 e E.f64 hso b t hd (fun W σ hV hs ho hσ hin => C64_double_sizes_partial hL c e1 e he1 h1 he E B base hbase K hk s o
    hsafe d d ex ex hex hex (.inr rfl) hal t ht b hx hstop q hq hq' n zs hz W hV hs ho hd hd σ hσ hin) scheds W σ hV hds hdt hσ hin hnum

/-! ### The hypotheses can be met -/
namespace Sized

theorem parSafe : K.ParSafe 0 1 := by
  intro j _ h
  cases h

theorem splits : ∃ zs, Splits ⟨1, 20, 0, 5, 0, 4⟩ 2 zs :=
  ⟨_, Splits.contiguous ⟨1, 20, 0, 5, 0, 4⟩ 2 (fun i => if i = 0 then 0 else if i = 1 then 3 else 4) rfl rfl (by decide)⟩

/-- Three steps by two threads in grids with 21 * 6 * 4 cells, however they take turns. -/
example : ∃ W σ e1 e base zs, ∀ s1 s2 s3 r,
    timeStepsPar (dC 21 6 4) B base FEnv.demo K (.signed 64) e1 e ⟨1, 20, 0, 5, 0, 4⟩ 2 zs 0 1 [s1, s2, s3] W = some r →
    Yields (dC 21 6 4) 0 W ((fun σ => exchange 0 1 (K.apply B FEnv.demo.f64 0 1 ⟨1, 20, 0, 5, 0, 4⟩ σ))^[3] σ) r := by
  obtain ⟨W, hV, h0, h1⟩ := world 21 6 4 ⟨20, 6, 4⟩ ⟨21, 6, 4⟩ (by decide) (by decide)
  obtain ⟨σ, hσ⟩ := Thr.exists_store (hL 21 6 4) hV
  obtain ⟨e1, he1, hn1, e, he, hn⟩ := vecs
  obtain ⟨zs, hz⟩ := splits
  refine ⟨W, σ, e1, e, fun id => 4096 * (1 + 100000 * id), zs, fun s1 s2 s3 r hr => ?_⟩
  exact (C64_double_sizes_steps_partial (hL 21 6 4) .avx e1 e he1 hn1 he FEnv.demo B _ (fun id => ⟨_, rfl⟩) K (by rw [hn]; rfl) 0 1 (by decide)
    parSafe ⟨20, 6, 4⟩ ⟨21, 6, 4⟩ (by decide) (suited _) (.signed 64) (by rw [hn]; decide) ⟨1, 20, 0, 5, 0, 4⟩ (by decide) (by decide)
    1 (by rw [hn]; decide) (by rw [hn]; decide) 2 _ hz W hV h0 h1 (by decide) σ hσ (reach h0 h1) (fun _ _ _ _ => rfl) [s1, s2, s3]).1 r hr

end Sized

end LFA.GK
