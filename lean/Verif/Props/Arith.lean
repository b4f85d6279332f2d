import Verif.Props.Kernel

/-
  The arithmetic of the targets: what divisions and square roots of vectors compute for each lane, where they are not correctly rounded. With
  these operations code for vectors agrees with scalar code on all targets (C44, C56).
-/
set_option linter.unusedSectionVars false
namespace LFA.SV

/-- Arithmetic: the operations of expressions, and `x / sqrt(y)`. -/
structure Calc (w : Nat) where
  F : FOps w
  ds : BitVec w → BitVec w → BitVec w

/-- Arithmetic of `short_vec<float, n>` on a target: quotients are products with a reciprocal unless division is exact, square roots are
    approximated on NEON, `x / sqrt(y)` is what `divSqrtF` says. -/
def floatArith (c : Cfg) (n : Nat) (F : FOps 32) : Calc 32 where
  F := { F with
    div := fun x y => if exactDiv c n then F.div x y else F.mul x (reciprocal c n F y)
    sqrt := fun x => if usesNeon c n then F.mul x ((if c = .neon_prec ∨ c = .neon_prec_lp64 then neonRsqrtPrec else neonRsqrt) F x) else F.sqrt x }
  ds := divSqrtF c n F

/-- Arithmetic of `short_vec<double, n>` on a target. -/
def doubleArith (c : Cfg) (n : Nat) (F : FOps 64) : Calc 64 where
  F := { F with
    div := if c = .qpx ∧ 2 < n then F.swdiv else F.div
    sqrt := if c = .qpx ∧ 2 < n then F.swsqrt else F.sqrt }
  ds := fun x y => if c = .qpx ∧ 2 < n then F.mul x (F.qrsqrte y) else F.div x (F.sqrt y)

/-- C44: `a / sqrt(b)` and `a /= sqrt(b)` for `double`. -/
theorem C44_double_divSqrt (c : Cfg) (e : Entry 64) (he : e ∈ doubleVecs c) (E : FEnv) :
    LaneWise e.impl (e.impl.divSqrt E) (doubleArith c e.impl.N E.f64).ds ∧
      LaneWise e.impl (e.impl.divSqrtA E) (doubleArith c e.impl.N E.f64).ds := by
  have A := double_arith c e he
  have h : (doubleOps c e.impl.N).divSqrt E = fun x y => some ((doubleArith c e.impl.N E.f64).ds x y) := by
    generalize e.impl.N = n
    by_cases h2 : n ≤ 2
    · have : ¬ 2 < n := by omega
      cases c <;> simp only [doubleOps, doubleArith, h2, if_true, this, and_false, if_false]
    · have : 2 < n := by omega
      cases c <;> simp [doubleOps, doubleArith, h2, this]
  exact ⟨laneWise A.len (h ▸ A.divSqrt E), laneWise A.len (h ▸ A.divSqrtA E)⟩

/-- Vectors of `float`s are faithful to the arithmetic of the target, without any restriction. -/
theorem float_target (c : Cfg) (e : Entry 32) (he : e ∈ floatVecs c) (E : FEnv) :
    Faithful e.impl e.cmp E (floatArith c e.impl.N E.f32).F true true e.cmp.isSome := by
  have H := float_faithful c e he E
  refine ⟨H.bcast, H.add, H.sub, H.mul, fun _ => (C44_float_div c e he E).1, fun _ => ?_, fun hC => ?_⟩
  · cases hn : usesNeon c e.impl.N
    · have := C44_float_sqrt c e he E hn
      simpa only [floatArith, hn, Bool.false_eq_true, if_false] using this
    · have := C44_float_sqrt_neon c e he E hn
      simpa only [floatArith, hn, if_true] using this
  · obtain ⟨D, h1, h2⟩ := H.sel hC
    refine ⟨D, h1, fun r a b => ?_⟩
    obtain ⟨m, h3, h4⟩ := h2 r a b
    refine ⟨m, h3, fun x y i hi => ?_⟩
    have hr : (floatArith c e.impl.N E.f32).F.rel r = E.f32.rel r := by cases r <;> rfl
    rw [h4 x y i hi, hr]

/-- Vectors of `double`s are faithful to the arithmetic of the target, without any restriction. -/
theorem double_target (c : Cfg) (e : Entry 64) (he : e ∈ doubleVecs c) (E : FEnv) :
    Faithful e.impl e.cmp E (doubleArith c e.impl.N E.f64).F true true e.cmp.isSome := by
  have H := double_faithful c e he E
  refine ⟨H.bcast, H.add, H.sub, H.mul, fun _ => (C44_double_div c e he E).1, fun _ => C44_double_sqrt c e he E, fun hC => ?_⟩
  obtain ⟨D, h1, h2⟩ := H.sel hC
  refine ⟨D, h1, fun r a b => ?_⟩
  obtain ⟨m, h3, h4⟩ := h2 r a b
  refine ⟨m, h3, fun x y i hi => ?_⟩
  have hr : (doubleArith c e.impl.N E.f64).F.rel r = E.f64.rel r := by cases r <;> rfl
  rw [h4 x y i hi, hr]

/-- Where divisions and square roots are exact the arithmetic of the target is that of scalars. -/
theorem floatArith_exact {c : Cfg} {n : Nat} (hd : exactDiv c n = true) (hs : usesNeon c n = false) (F : FOps 32) :
    (floatArith c n F).F = F := by
  simp [floatArith, hd, hs]

theorem doubleArith_exact {c : Cfg} {n : Nat} (h : ¬ (c = .qpx ∧ 2 < n)) (F : FOps 64) :
    (doubleArith c n F).F = F ∧ (doubleArith c n F).ds = fun x y => F.div x (F.sqrt y) := by
  simp [doubleArith, h]

/-- C56 for all code, on all targets: each lane is what scalar code computes with the target's divisions and square roots. -/
theorem C56_float_target (c : Cfg) (e : Entry 32) (he : e ∈ floatVecs c) (E : FEnv) (k : Expr 32) (hk : k.only true true (hasFloatCmp c e.impl.N) = true)
    (env : Nat → e.impl.V) :
    ∃ v, k.vec e.impl e.cmp E (fun i => some (env i)) = some v ∧
      ∀ i < e.impl.N, lane e.impl v i = k.scalar (floatArith c e.impl.N E.f32).F fun j => lane e.impl (env j) i := by
  rw [← C45_float_available c e he] at hk
  exact (float_target c e he E).vec _ (fun i j => lane e.impl (env j) i) k hk fun j _ => ⟨_, rfl, fun _ _ => rfl⟩

/-- C56 for `double`, likewise. -/
theorem C56_double_target (c : Cfg) (e : Entry 64) (he : e ∈ doubleVecs c) (E : FEnv) (k : Expr 64) (hk : k.only true true (hasDoubleCmp c e.impl.N) = true)
    (env : Nat → e.impl.V) :
    ∃ v, k.vec e.impl e.cmp E (fun i => some (env i)) = some v ∧
      ∀ i < e.impl.N, lane e.impl v i = k.scalar (doubleArith c e.impl.N E.f64).F fun j => lane e.impl (env j) i := by
  rw [← C45_double_available c e he] at hk
  exact (double_target c e he E).vec _ (fun i j => lane e.impl (env j) i) k hk fun j _ => ⟨_, rfl, fun _ _ => rfl⟩

/-- A quotient of vectors of 8 `float`s on AVX, where division is not exact. -/
example : ∃ e ∈ floatVecs .avx, e.impl.N = 8 ∧ ∀ (E : FEnv) (env : Nat → e.impl.V), ∃ v,
    (Expr.div (.var 0) (.var 1)).vec e.impl e.cmp E (fun i => some (env i)) = some v ∧
      ∀ i < 8, lane e.impl v i = E.f32.mul (lane e.impl (env 0) i) (reciprocal .avx 8 E.f32 (lane e.impl (env 1) i)) := by
  obtain ⟨e, he, hn⟩ : ∃ e ∈ floatVecs .avx, e.impl.N = 8 :=
    ⟨_, List.mem_cons_of_mem _ (List.mem_cons_of_mem _ (List.mem_cons_of_mem _ List.mem_cons_self)), rfl⟩
  refine ⟨e, he, hn, fun E env => ?_⟩
  obtain ⟨v, h, hv⟩ := C56_float_target .avx e he E (.div (.var 0) (.var 1)) (by simp [Expr.only]) env
  refine ⟨v, h, fun i hi => ?_⟩
  rw [hv i (by omega), hn]
  rfl

end LFA.SV
