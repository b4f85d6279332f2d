/-
  C62 for the stencil which is coded with short_vecs and the loop peeler in examples/performance_tests/main.cpp.
-/
import Verif.JacobiGold
import Verif.Props.IntrinsicKernel
import Verif.Props.SizedKernel
set_option linter.unusedSectionVars false
namespace LFA.GK
open SV (Expr Entry FEnv FOps)
open Thr (Loc Ref InGrid ValueIs)

variable {V : Type} [DecidableEq V] {C : Cfg V} {dv : V}

/-- The weighted sum of the six neighbours, in the order of `update_line`. -/
def Jacobi.six (K : Jacobi) (B : Bits 64 V) (F : FOps 64) (s : Nat) (σ : Loc → V) (x y z : Int) : V :=
  let n := K.num B s σ
  B.val (F.add (F.add (F.add (F.add (F.add (F.mul (n x y (z - 1)) K.S) (F.mul (n x (y - 1) z) K.T)) (F.mul (n (x - 1) y z) K.W))
    (F.mul (n (x + 1) y z) K.E)) (F.mul (n x (y + 1) z) K.B)) (F.mul (n x y (z + 1)) K.N))

/-- What the functor leaves: the inner cells of the new grid are updated. -/
def Jacobi.inner (K : Jacobi) (B : Bits 64 V) (F : FOps 64) (s o : Nat) (nx ny nz : Int) (σ : Loc → V) : Loc → V := fun l =>
  if l.s = o ∧ l.r = K.r ∧ l.k = K.k ∧ 1 ≤ l.x ∧ l.x < nx - 1 ∧ 1 ≤ l.y ∧ l.y < ny - 1 ∧ 1 ≤ l.z ∧ l.z < nz - 1
  then K.six B F s σ l.x l.y l.z else σ l

theorem gold_apply (K : Jacobi) (B : Bits 64 V) (F : FOps 64) (s o : Nat) (nx ny nz : Int) (σ : Loc → V) :
    K.goldCode.apply B F s o (Jacobi.goldBox nx ny nz) σ = K.inner B F s o nx ny nz σ := by
  funext l
  unfold Stencil.apply Jacobi.inner Box.Has Jacobi.goldBox
  have e0 : K.goldCode.dst = ⟨0, 0, 0, K.r, K.k⟩ := rfl
  simp only [e0, sub_zero]
  congr 1
  simp only [Stencil.result, Jacobi.six, Jacobi.num, Jacobi.goldCode, Expr.scalar, Stencil.srcLoc, Stencil.slot, at', add_zero,
    Bool.false_eq_true, if_false, sub_eq_add_neg]

theorem gold_vars {K : Jacobi} {j : Nat} (h : j ∈ K.goldCode.code.vars) : j = 0 ∨ j = 1 ∨ j = 2 ∨ j = 3 ∨ j = 4 ∨ j = 5 := by
  simp [Jacobi.goldCode, Expr.vars] at h
  omega

theorem gold_src (K : Jacobi) (j : Nat) : (K.goldCode.src j).r = K.r ∧ (K.goldCode.src j).k = K.k := by
  unfold Jacobi.goldCode
  simp only
  split <;> exact ⟨rfl, rfl⟩

theorem no_demands {c : SV.Cfg} {n : Nat} (hc : ¬ (c = .qpx ∧ 2 < n)) : (SV.doubleReqs c n).any = 1 := by
  cases c <;> simp only [SV.doubleReqs] <;> (repeat' split) <;> first | rfl | exact absurd ⟨rfl, by omega⟩ hc

theorem gold_reach {K : Jacobi} {d : Ext} {nx ny nz : Int} (hm : ∃ m, C.L[K.r]? = some m ∧ m.ty.size = 8 ∧ K.k < m.elems)
    (hx : nx ≤ d.x) (hy : ny ≤ d.y) (hz : nz ≤ d.z) {s o : Nat} {W : World V} (hs : DimsAre C W s d) (ho : DimsAre C W o d) :
    K.goldCode.Reach s o (Jacobi.goldBox nx ny nz) (InGrid C W) := by
  obtain ⟨m, hm, -, hk⟩ := hm
  intro x y z hb
  simp only [Box.Has, Jacobi.goldBox] at hb
  refine ⟨⟨d, m, ho, hm, hk, by simp [Stencil.dstLoc, at', Jacobi.goldCode]; omega⟩, fun j hj => ?_⟩
  rcases gold_vars hj with rfl | rfl | rfl | rfl | rfl | rfl <;>
    exact ⟨d, m, hs, hm, hk, by simp [Stencil.srcLoc, at', Jacobi.goldCode]; omega⟩

theorem gold_suited {K : Jacobi} (hm : ∃ m, C.L[K.r]? = some m ∧ m.ty.size = 8 ∧ K.k < m.elems) {c : SV.Cfg} {N : Nat}
    (hc : ¬ (c = .qpx ∧ 2 < N)) {d e : Ext} (he : selectSizes C.tr d = .ok e) (hs : C.tr = .dflt ∨ 8 ∣ e.x * e.y * e.z * offset C.L K.r) :
    K.goldCode.Suited C 8 e e N (SV.doubleReqs c N) := by
  have hs' : 8 ∣ e.x * e.y * e.z * offset C.L K.r := by
    rcases hs with htr | hs
    · rw [htr] at he
      exact Dvd.dvd.mul_right (Nat.dvd_trans (by decide) (dflt_prod he).1) _
    · exact hs
  obtain ⟨m, h1, h2, -⟩ := hm
  refine ⟨fun j _ => ⟨m, by rw [(gold_src K j).1]; exact h1, h2⟩, fun j _ => ⟨?_, .inl (no_demands hc)⟩, ⟨m, h1, h2⟩,
    ⟨1, by show some _ = some 1; rw [no_demands hc], hs', .inl rfl⟩⟩
  rw [(gold_src K j).1, ite_self]
  exact hs'

/-- Requirements for grids with dimensions `d`: the member is a `double`, its arrays are aligned (always so with default sizes, which provide
    the extents `ex`), the functor has been given at most the dimensions of the grids, and there is room for a vector in a row. -/
structure Jacobi.Room (K : Jacobi) (C : Cfg V) (d ex : Ext) (nx ny nz : Int) (N : Nat) : Prop where
  start : C.tr = .dflt ∨ 8 ∣ ex.x * ex.y * ex.z * offset C.L K.r
  member : ∃ m, C.L[K.r]? = some m ∧ m.ty.size = 8 ∧ K.k < m.elems
  lo : N < nx
  hi : nx ≤ 2 ^ 63
  x : nx ≤ d.x
  y : ny ≤ d.y
  z : nz ≤ d.z

/-- The old temperatures are numbers, in both grids. -/
def Jacobi.AllNumbers (K : Jacobi) (C : Cfg V) (B : Bits 64 V) (W : World V) (s o : Nat) (σ : Loc → V) : Prop :=
  ∀ l, InGrid C W l → (l.s = s ∨ l.s = o) → l.r = K.r → (B.bits (σ l)).isSome = true

/-- C62 for any number of time steps of this stencil: on any target, with vectors of any arity (except for those of QPX's own), each step computes the weighted sums
    of the six neighbours for all inner cells, and changes nothing else. Missing: rows which are too short for a vector (as in `C62_false`),
    vectors on QPX, and the cell itself is no part of the sum (`C62_false_gold`). -/
theorem C62_gold_steps_partial (hL : C.L.WF) (c : SV.Cfg) (e1 e : Entry 64) (he1 : e1 ∈ SV.doubleVecs c) (h1 : e1.impl.N = 1)
    (he : e ∈ SV.doubleVecs c) (hc : ¬ (c = .qpx ∧ 2 < e.impl.N)) (E : FEnv) (B : Bits 64 V) (base : Nat → Nat) (hbase : ∀ id, 4096 ∣ base id) (K : Jacobi) (d ex : Ext)
    (nx ny nz : Int) (hF : K.Room C d ex nx ny nz e.impl.N) (hex : selectSizes C.tr d = .ok ex) (s o : Nat) (hso : s ≠ o) (W : World V)
    (hV : Valid C dv W) (hds : DimsAre C W s d) (hdo : DimsAre C W o d) (hd : d ≠ ⟨0, 0, 0⟩) (σ : Loc → V)
    (hσ : ∀ l, InGrid C W l → ValueIs C W l (σ l)) (hnum : K.AllNumbers C B W s o σ) (n : Nat) :
    Yields C dv W ((fun σ => exchange s o (K.inner B E.f64 s o nx ny nz σ))^[n] σ) (K.goldSteps C B base E e1 e nx ny nz s o n W) := by
  have hN : e.impl.N ∈ [1, 2, 4, 8, 16, 32] := SV.double_arity c e he
  have hN1 : 1 ≤ e.impl.N := by
    have : ∀ n ∈ [1, 2, 4, 8, 16, 32], 1 ≤ n := by decide
    exact this _ hN
  have hdvd : (e.impl.N : Int) ∣ (Peel.CTy.unsigned 64).hi := by
    have : ∀ n ∈ [1, 2, 4, 8, 16, 32], ((n : Nat) : Int) ∣ (Peel.CTy.unsigned 64).hi := by decide
    exact this _ hN
  have hhi : (Peel.CTy.unsigned 64).hi = 2 ^ 64 := by decide
  have hlo := hF.lo
  have h63 := hF.hi
  have hk : K.goldCode.code.only (!decide (c = .qpx ∧ 2 < e.impl.N)) (!decide (c = .qpx ∧ 2 < e.impl.N)) (SV.hasDoubleCmp c e.impl.N) = true := by
    simp [Jacobi.goldCode, Expr.only]
  have key := C62_double_sizes_steps_partial (dv := dv) hL c e1 e he1 h1 he E B base hbase K.goldCode hk s o hso
    (by intro j _ h; exact absurd h hso) d ex hex (gold_suited hF.member hc hex hF.start) (.unsigned 64) hdvd (Jacobi.goldBox nx ny nz)
    (by show (0 : Int) ≤ 1; decide) (by rw [hhi]; show nx - 1 < _; omega) 1 (by show (1 : Int) ≤ _; omega) (by show _ ≤ nx - 1; omega) W hV hds hdo hd σ hσ
    (gold_reach hF.member hF.x hF.y hF.z hds hdo)
    (by rintro l h1 h2 ⟨j, -, hj⟩; exact hnum l h1 h2 (hj.trans (gold_src K j).1)) n
  rw [show (fun σ => exchange s o (K.inner B E.f64 s o nx ny nz σ)) = fun σ => exchange s o (K.goldCode.apply B E.f64 s o (Jacobi.goldBox nx ny nz) σ)
    from funext fun σ => by rw [gold_apply]]
  exact key

/-- C62 for one call of this functor: see `C62_gold_steps_partial`. -/
theorem C62_gold_partial (hL : C.L.WF) (c : SV.Cfg) (e1 e : Entry 64) (he1 : e1 ∈ SV.doubleVecs c) (h1 : e1.impl.N = 1)
    (he : e ∈ SV.doubleVecs c) (hc : ¬ (c = .qpx ∧ 2 < e.impl.N)) (E : FEnv) (B : Bits 64 V) (base : Nat → Nat) (hbase : ∀ id, 4096 ∣ base id) (K : Jacobi) (d ex : Ext)
    (nx ny nz : Int) (hF : K.Room C d ex nx ny nz e.impl.N) (hex : selectSizes C.tr d = .ok ex) (s o : Nat) (hso : s ≠ o) (W : World V)
    (hV : Valid C dv W) (hds : DimsAre C W s d) (hdo : DimsAre C W o d) (hd : d ≠ ⟨0, 0, 0⟩) (σ : Loc → V)
    (hσ : ∀ l, InGrid C W l → ValueIs C W l (σ l)) (hnum : K.AllNumbers C B W s o σ) :
    ∃ σ', Yields C dv W σ' (K.gold C B base E e1 e nx ny nz W s o) ∧
      (∀ x y z, 1 ≤ x → x < nx - 1 → 1 ≤ y → y < ny - 1 → 1 ≤ z → z < nz - 1 → σ' ⟨o, x, y, z, K.r, K.k⟩ = K.six B E.f64 s σ x y z) ∧
      ∀ l : Loc, ¬ (l.s = o ∧ l.r = K.r ∧ l.k = K.k ∧ 1 ≤ l.x ∧ l.x < nx - 1 ∧ 1 ≤ l.y ∧ l.y < ny - 1 ∧ 1 ≤ l.z ∧ l.z < nz - 1) →
        σ' l = σ l := by
  have hN : e.impl.N ∈ [1, 2, 4, 8, 16, 32] := SV.double_arity c e he
  have hN1 : 1 ≤ e.impl.N := by
    have : ∀ n ∈ [1, 2, 4, 8, 16, 32], 1 ≤ n := by decide
    exact this _ hN
  have hdvd : (e.impl.N : Int) ∣ (Peel.CTy.unsigned 64).hi := by
    have : ∀ n ∈ [1, 2, 4, 8, 16, 32], ((n : Nat) : Int) ∣ (Peel.CTy.unsigned 64).hi := by decide
    exact this _ hN
  have hhi : (Peel.CTy.unsigned 64).hi = 2 ^ 64 := by decide
  have hlo := hF.lo
  have h63 := hF.hi
  have hk : K.goldCode.code.only (!decide (c = .qpx ∧ 2 < e.impl.N)) (!decide (c = .qpx ∧ 2 < e.impl.N)) (SV.hasDoubleCmp c e.impl.N) = true := by
    simp [Jacobi.goldCode, Expr.only]
  have key := C62_double_sizes_partial (dv := dv) hL c e1 e he1 h1 he E B base hbase K.goldCode hk s o
    (by intro j _ h; exact absurd h hso) d d ex ex hex hex (.inr rfl) (gold_suited hF.member hc hex hF.start) (.unsigned 64) hdvd
    (Jacobi.goldBox nx ny nz)
    (by show (0 : Int) ≤ 1; decide) (by rw [hhi]; show nx - 1 < _; omega) 1 (by show (1 : Int) ≤ _; omega) (by show _ ≤ nx - 1; omega) W hV hds hdo
    hd hd σ hσ ((gold_reach hF.member hF.x hF.y hF.z hds hdo).inside
      (by rintro l h1 h2 ⟨j, -, hj⟩; exact hnum l h1 h2 (hj.trans (gold_src K j).1)))
  rw [gold_apply] at key
  refine ⟨_, key, fun x y z h1 h2 h3 h4 h5 h6 => ?_, fun l hl => ?_⟩
  · unfold Jacobi.inner
    rw [if_pos ⟨rfl, rfl, rfl, h1, h2, h3, h4, h5, h6⟩]
  · unfold Jacobi.inner
    rw [if_neg hl]

/-- The functor does not compute what the scalar code computes (examples/performance_tests/main.cpp:857-872, 136-151): the temperature of a
    cell has no influence on its new temperature. If only that cell is warm, then the functor computes zero, but the scalar code computes the
    cell's weight. -/
theorem C62_false_gold (hL : C.L.WF) (c : SV.Cfg) (e1 e : Entry 64) (he1 : e1 ∈ SV.doubleVecs c) (h1 : e1.impl.N = 1)
    (he : e ∈ SV.doubleVecs c) (hc : ¬ (c = .qpx ∧ 2 < e.impl.N)) (E : FEnv) (hE : Exact E.f64) (B : Bits 64 V) (base : Nat → Nat) (hbase : ∀ id, 4096 ∣ base id) (K : Jacobi)
    (d ex : Ext) (nx ny nz : Int) (hF : K.Room C d ex nx ny nz e.impl.N) (hex : selectSizes C.tr d = .ok ex) (s o : Nat) (hso : s ≠ o)
    (W : World V) (hV : Valid C dv W) (hds : DimsAre C W s d) (hdo : DimsAre C W o d) (hd : d ≠ ⟨0, 0, 0⟩) (σ : Loc → V)
    (hσ : ∀ l, InGrid C W l → ValueIs C W l (σ l)) (hnum : K.AllNumbers C B W s o σ) (x y z : Int)
    (hx : 1 ≤ x) (hx' : x < nx - 1) (hy : 1 ≤ y) (hy' : y < ny - 1) (hz : 1 ≤ z) (hz' : z < nz - 1)
    (hcold : ∀ x' y' z', 0 ≤ x' → x' < nx → 0 ≤ y' → y' < ny → 0 ≤ z' → z' < nz →
      B.bits (σ ⟨s, x', y', z', K.r, K.k⟩) = some (if x' = x ∧ y' = y ∧ z' = z then dOne else 0))
    (hw : ∀ w ∈ [K.S, K.T, K.W, K.C, K.E, K.B, K.N], SV.Fmt.double.finite w) :
    ∃ σ' v, Yields C dv W σ' (K.gold C B base E e1 e nx ny nz W s o) ∧ σ' ⟨o, x, y, z, K.r, K.k⟩ = B.val v ∧ SV.Fmt.double.val v = 0 ∧
      ∃ v', K.sum7 B E.f64 s σ x y z = B.val v' ∧ SV.Fmt.double.val v' = SV.Fmt.double.val K.C := by
  obtain ⟨σ', g1, g2, -⟩ := C62_gold_partial (dv := dv) hL c e1 e he1 h1 he hc E B base hbase K d ex nx ny nz hF hex s o hso W hV hds hdo hd σ hσ hnum
  have hn : ∀ x' y' z', 0 ≤ x' → x' < nx → 0 ≤ y' → y' < ny → 0 ≤ z' → z' < nz →
      K.num B s σ x' y' z' = if x' = x ∧ y' = y ∧ z' = z then dOne else 0 := fun x' y' z' h0 h1 h2 h3 h4 h5 => by
    unfold Jacobi.num; rw [hcold x' y' z' h0 h1 h2 h3 h4 h5]; rfl
  have z0 := dZero_val
  have m0 : ∀ w, SV.Fmt.double.finite w → SV.Fmt.double.finite (E.f64.mul 0 w) ∧ SV.Fmt.double.val (E.f64.mul 0 w) = 0 := fun w h => by
    have := hE.mul 0 w 0 z0.1 h z0.1 (by rw [z0.2]; ring)
    rw [z0.2] at this; exact this
  have a0 : ∀ u v q, SV.Fmt.double.finite u → SV.Fmt.double.val u = 0 → SV.Fmt.double.finite v → SV.Fmt.double.val v = q →
      SV.Fmt.double.finite (E.f64.add u v) ∧ SV.Fmt.double.val (E.f64.add u v) = q := fun u v q h1 h2 h3 h4 => by
    have := hE.add u v v h1 h3 h3 (by rw [h2]; ring)
    rw [h4] at this; exact this
  have a1 : ∀ u v q, SV.Fmt.double.finite u → SV.Fmt.double.val u = q → SV.Fmt.double.finite v → SV.Fmt.double.val v = 0 →
      SV.Fmt.double.finite (E.f64.add u v) ∧ SV.Fmt.double.val (E.f64.add u v) = q := fun u v q h1 h2 h3 h4 => by
    have := hE.add u v u h1 h3 h1 (by rw [h4]; ring)
    rw [h2] at this; exact this
  simp only [List.mem_cons, List.not_mem_nil, or_false, forall_eq_or_imp, forall_eq] at hw
  obtain ⟨wS, wT, wW, wC, wE, wB, wN⟩ := hw
  have c1 : E.f64.mul dOne K.C |> fun v => SV.Fmt.double.finite v ∧ SV.Fmt.double.val v = SV.Fmt.double.val K.C :=
    hE.mul dOne K.C K.C dOne_val.1 wC wC (by rw [dOne_val.2]; ring)
  have n1 : K.num B s σ x y (z - 1) = 0 := by rw [hn _ _ _ (by omega) (by omega) (by omega) (by omega) (by omega) (by omega), if_neg (by omega)]
  have n2 : K.num B s σ x (y - 1) z = 0 := by rw [hn _ _ _ (by omega) (by omega) (by omega) (by omega) (by omega) (by omega), if_neg (by omega)]
  have n3 : K.num B s σ (x - 1) y z = 0 := by rw [hn _ _ _ (by omega) (by omega) (by omega) (by omega) (by omega) (by omega), if_neg (by omega)]
  have n4 : K.num B s σ x y z = dOne := by rw [hn _ _ _ (by omega) (by omega) (by omega) (by omega) (by omega) (by omega), if_pos ⟨rfl, rfl, rfl⟩]
  have n5 : K.num B s σ (x + 1) y z = 0 := by rw [hn _ _ _ (by omega) (by omega) (by omega) (by omega) (by omega) (by omega), if_neg (by omega)]
  have n6 : K.num B s σ x (y + 1) z = 0 := by rw [hn _ _ _ (by omega) (by omega) (by omega) (by omega) (by omega) (by omega), if_neg (by omega)]
  have n7 : K.num B s σ x y (z + 1) = 0 := by rw [hn _ _ _ (by omega) (by omega) (by omega) (by omega) (by omega) (by omega), if_neg (by omega)]
  refine ⟨σ', _, g1, (g2 x y z hx hx' hy hy' hz hz').trans rfl, ?_, _, rfl, ?_⟩
  · rw [n1, n2, n3, n5, n6, n7]
    have t1 := a0 _ _ 0 (m0 _ wS).1 (m0 _ wS).2 (m0 _ wT).1 (m0 _ wT).2
    have t2 := a0 _ _ 0 t1.1 t1.2 (m0 _ wW).1 (m0 _ wW).2
    have t3 := a0 _ _ 0 t2.1 t2.2 (m0 _ wE).1 (m0 _ wE).2
    have t4 := a0 _ _ 0 t3.1 t3.2 (m0 _ wB).1 (m0 _ wB).2
    exact (a0 _ _ 0 t4.1 t4.2 (m0 _ wN).1 (m0 _ wN).2).2
  · rw [n1, n2, n3, n4, n5, n6, n7]
    have t1 := a0 _ _ 0 (m0 _ wS).1 (m0 _ wS).2 (m0 _ wT).1 (m0 _ wT).2
    have t2 := a0 _ _ 0 t1.1 t1.2 (m0 _ wW).1 (m0 _ wW).2
    have t3 := a0 _ _ _ t2.1 t2.2 c1.1 c1.2
    have t4 := a1 _ _ _ t3.1 t3.2 (m0 _ wE).1 (m0 _ wE).2
    have t5 := a1 _ _ _ t4.1 t4.2 (m0 _ wB).1 (m0 _ wB).2
    exact (a1 _ _ _ t5.1 t5.2 (m0 _ wN).1 (m0 _ wN).2).2

/-! ### The hypotheses can be met -/
namespace Gold
open Silver (dC dB jK base hL world)

theorem room : jK.Room dC ⟨24, 6, 6⟩ ⟨32, 32, 32⟩ 20 6 6 4 := ⟨.inl rfl, ⟨_, rfl, rfl, by decide⟩, by decide, by decide, by decide, by decide, by decide⟩

theorem base4096 (id : Nat) : 4096 ∣ base id := ⟨_, rfl⟩

theorem vecs : ∃ e1 ∈ SV.doubleVecs .avx, e1.impl.N = 1 ∧ ∃ e ∈ SV.doubleVecs .avx, e.impl.N = 4 :=
  ⟨_, List.mem_cons_self, rfl, _, List.mem_cons_of_mem _ (List.mem_cons_of_mem _ List.mem_cons_self), rfl⟩

/-- 50 steps on AVX with vectors of 4 `double`s. -/
example : ∃ e1 e W σ, e.impl.N = 4 ∧ Yields dC 0 W ((fun σ => exchange 0 1 (jK.inner dB FEnv.demo.f64 0 1 20 6 6 σ))^[50] σ)
    (jK.goldSteps dC dB base FEnv.demo e1 e 20 6 6 0 1 50 W) := by
  obtain ⟨W, σ, hV, h0, h1, hσ, -⟩ := world
  obtain ⟨e1, he1, hn1, e, he, hn⟩ := vecs
  exact ⟨e1, e, W, σ, hn, C62_gold_steps_partial hL .avx e1 e he1 hn1 he (fun h => nomatch h.1) _ dB base base4096 jK ⟨24, 6, 6⟩ ⟨32, 32, 32⟩ 20 6 6
    (hn ▸ room) (by decide) 0 1 (by decide) W hV h0 h1 (by decide) σ hσ (fun _ _ _ _ => rfl) 50⟩

/-- Only cell (4, 2, 3) is warm. -/
example : ∃ E e1 e W σ σ' v, e.impl.N = 4 ∧ Yields dC 0 W σ' (jK.gold dC dB base E e1 e 20 6 6 W 0 1) ∧ σ' ⟨1, 4, 2, 3, 0, 0⟩ = v ∧
    SV.Fmt.double.val v = 0 ∧ ∃ v', jK.sum7 dB E.f64 0 σ 4 2 3 = v' ∧ SV.Fmt.double.val v' = SV.Fmt.double.val jK.C := by
  obtain ⟨W, σ, hV, h0, h1, hσ, hw⟩ := world
  obtain ⟨E, hE⟩ := Silver.exact_exists
  obtain ⟨e1, he1, hn1, e, he, hn⟩ := vecs
  obtain ⟨σ', v, k⟩ := C62_false_gold hL .avx e1 e he1 hn1 he (fun h => nomatch h.1) E hE dB base base4096 jK ⟨24, 6, 6⟩ ⟨32, 32, 32⟩ 20 6 6
    (hn ▸ room) (by decide) 0 1 (by decide) W hV h0 h1 (by decide) σ hσ (fun _ _ _ _ => rfl)
    4 2 3 (by decide) (by decide) (by decide) (by decide) (by decide) (by decide)
    (fun x y z h0 _ h2 _ h4 _ => congrArg some (hw x y z h0 h2 h4))
    (by
      intro w h
      simp only [jK, List.mem_cons, List.not_mem_nil, or_false] at h
      rcases h with rfl | rfl | rfl | rfl | rfl | rfl | rfl <;> (unfold SV.Fmt.finite; decide))
  exact ⟨E, e1, e, W, σ, σ', v, hn, k⟩

end Gold

end LFA.GK
