/-
  C62 and C64 for the Gauss filter of examples/gauss/main.cpp.
-/
import Verif.GaussFilter
import Verif.Props.JacobiGold
import Verif.Props.SizedOmp
set_option linter.unusedSectionVars false
namespace LFA.GK
open SV (Expr Entry FEnv FOps)
open Thr (Loc Ref InGrid ValueIs)

variable {V : Type} [DecidableEq V] {C : Cfg V} {dv : V}

/-- The number which a cell contains. -/
def Gauss.num (K : Gauss) (B : Bits 64 V) (s : Nat) (σ : Loc → V) (x y z : Int) : BitVec 64 := (B.bits (σ ⟨s, x, y, z, K.r, K.k⟩)).getD 0

/-- Offsets within the plane: y first, z varies most slowly. -/
def Gauss.offsets : List (Int × Int) := [-2, -1, 0, 1, 2].flatMap fun dz => [-2, -1, 0, 1, 2].map fun dy => (dy, dz)

/-- The Gaussian bell at an offset. -/
def Gauss.bell (K : Gauss) (p : Int × Int) : BitVec 64 := K.raw (p.1 ^ 2 + p.2 ^ 2).toNat

/-- Its normalised value. -/
def Gauss.kernel (K : Gauss) (F : FOps 64) (p : Int × Int) : BitVec 64 :=
  F.div (K.bell p) (offsets.foldl (fun sum q => F.add sum (K.bell q)) 0)

/-- The convolution with the bell: the neighbours in the plane, each weighted with the normalised value of the bell at its offset. -/
def Gauss.conv (K : Gauss) (B : Bits 64 V) (F : FOps 64) (s : Nat) (σ : Loc → V) (x y z : Int) : V :=
  let term := fun p : Int × Int => F.mul (K.num B s σ x (y + p.1) (z + p.2)) (K.kernel F p)
  B.val (offsets.tail.foldl (fun sum p => F.add sum (term p)) (term (-2, -2)))

/-- The cells which are filtered: there is no border along the x-axis. -/
def Gauss.Inner (nx ny nz : Nat) (x y z : Int) : Prop := 0 ≤ x ∧ x < nx ∧ 2 ≤ y ∧ y < ny - 2 ∧ 2 ≤ z ∧ z < nz - 2

instance (nx ny nz : Nat) (x y z : Int) : Decidable (Gauss.Inner nx ny nz x y z) := by unfold Gauss.Inner; infer_instance

/-- What the filter leaves. -/
def Gauss.filtered (K : Gauss) (B : Bits 64 V) (F : FOps 64) (s o : Nat) (nx ny nz : Nat) (σ : Loc → V) : Loc → V := fun l =>
  if l.s = o ∧ l.r = K.r ∧ l.k = K.k ∧ Gauss.Inner nx ny nz l.x l.y l.z then K.conv B F s σ l.x l.y l.z else σ l

/-- Requirements for grids with dimensions `d`: default sizes, the member is a `double`, the functor has been given at most the dimensions of
    the grids. -/
structure Gauss.Fit (K : Gauss) (C : Cfg V) (d : Ext) (nx ny nz : Nat) : Prop where
  sizes : C.tr = .dflt
  member : ∃ m, C.L[K.r]? = some m ∧ m.ty.size = 8 ∧ K.k < m.elems
  lo : 2 ≤ ny
  x : nx ≤ d.x
  y : ny ≤ d.y
  z : nz ≤ d.z
  hx : nx < 2 ^ 64
  hy : ny ≤ 2 ^ 64
  hz : nz ≤ 2 ^ 31

theorem gauss_box {nx ny nz : Nat} (h2 : 2 ≤ ny) (hy : ny ≤ 2 ^ 64) (hz : nz ≤ 2 ^ 31) :
    Gauss.box nx ny nz = ⟨0, nx, 2, ny - 2, 2, nz - 2⟩ := by
  unfold Gauss.box
  have hy' : ny ≤ 18446744073709551616 := hy
  have hz' : nz ≤ 2147483648 := hz
  have h1 : ((ny : Int) - 2) % 2 ^ 64 = ny - 2 := Int.emod_eq_of_lt (by omega) (by omega)
  have h3 : ((nz : Int) - 2).bmod (2 ^ 32) = nz - 2 := Int.bmod_eq_of_le (by omega) (by omega)
  rw [h1, h3]

theorem gauss_apply (K : Gauss) (B : Bits 64 V) (F : FOps 64) (s o : Nat) {nx ny nz : Nat} (h2 : 2 ≤ ny) (hy : ny ≤ 2 ^ 64)
    (hz : nz ≤ 2 ^ 31) (σ : Loc → V) : (K.functor F).apply B F s o (Gauss.box nx ny nz) σ = K.filtered B F s o nx ny nz σ := by
  rw [gauss_box h2 hy hz]
  funext l
  unfold Stencil.apply Gauss.filtered Box.Has Gauss.Inner
  have e0 : (K.functor F).dst = ⟨0, 0, 0, K.r, K.k⟩ := rfl
  simp only [e0, sub_zero]
  have : (K.functor F).result B F s o σ l.x l.y l.z = K.conv B F s σ l.x l.y l.z := by
    have hx : K.conv B F s σ l.x l.y l.z = K.conv B F s σ (l.x + 0) l.y l.z := by rw [add_zero]
    rw [hx]
    unfold Stencil.result Gauss.conv
    rfl
  rw [this]

theorem gauss_src (K : Gauss) (F : FOps 64) (j : Nat) : ((K.functor F).src j).X = 0 ∧ ((K.functor F).src j).r = K.r ∧ ((K.functor F).src j).k = K.k ∧
    -2 ≤ ((K.functor F).src j).Y ∧ ((K.functor F).src j).Y ≤ 2 ∧ -2 ≤ ((K.functor F).src j).Z ∧ ((K.functor F).src j).Z ≤ 2 := by
  unfold Gauss.functor Gauss.filter
  simp only
  cases h : (Gauss.taps (K.weights F 2 2) (K.weights F 2 1) (K.weights F 2 0) (K.weights F 1 1) (K.weights F 1 0) (K.weights F 0 0))[j]? with
  | none => simp
  | some t =>
    have hm := List.mem_of_getElem? h
    simp only [Gauss.taps, List.mem_cons, List.not_mem_nil, or_false] at hm
    refine ⟨rfl, rfl, rfl, ?_⟩
    rcases hm with rfl | rfl | rfl | rfl | rfl | rfl | rfl | rfl | rfl | rfl | rfl | rfl | rfl | rfl | rfl | rfl | rfl | rfl | rfl | rfl | rfl |
      rfl | rfl | rfl | rfl <;> simp

theorem gauss_reach {K : Gauss} {F : FOps 64} {d : Ext} {nx ny nz : Nat} (hF : K.Fit C d nx ny nz) {s o : Nat} {W : World V}
    (hs : DimsAre C W s d) (ho : DimsAre C W o d) : (K.functor F).Reach s o (Gauss.box nx ny nz) (InGrid C W) := by
  obtain ⟨m, hm, -, hk⟩ := hF.member
  have h1 := hF.x
  have h2 := hF.y
  have h3 := hF.z
  rw [gauss_box hF.lo hF.hy hF.hz]
  intro x y z hb
  simp only [Box.Has] at hb
  refine ⟨⟨d, m, ho, hm, hk, ?_⟩, fun j _ => ?_⟩
  · simp only [Stencil.dstLoc, at', show (K.functor F).dst = ⟨0, 0, 0, K.r, K.k⟩ from rfl]; omega
  · obtain ⟨e1, e2, e3, e4, e5, e6, e7⟩ := gauss_src K F j
    refine ⟨d, m, hs, by simpa [Stencil.srcLoc, at', e2] using hm, by simpa [Stencil.srcLoc, at', e3] using hk, ?_⟩
    simp only [Stencil.srcLoc, at', e1]
    omega

theorem double_any (c : SV.Cfg) (N : Nat) (hN : N ∈ [1, 2, 4, 8, 16, 32]) :
    (SV.doubleReqs c N).any = 1 ∨ (SV.doubleReqs c N).any = 32 ∧ 4 ∣ N := by
  by_cases hc : c = .qpx ∧ 2 < N
  · right
    obtain ⟨rfl, h⟩ := hc
    have h4 : ∀ n ∈ [1, 2, 4, 8, 16, 32], 2 < n → 4 ∣ n := by decide
    refine ⟨?_, h4 _ hN h⟩
    simp only [SV.doubleReqs]
    rw [if_neg (by omega)]
  · exact .inl (no_demands hc)

theorem gauss_suited {K : Gauss} {F : FOps 64} {d : Ext} {nx ny nz : Nat} (hF : K.Fit C d nx ny nz) {c : SV.Cfg} {N : Nat}
    (hN : N ∈ [1, 2, 4, 8, 16, 32]) {e : Ext} (he : selectSizes C.tr d = .ok e) : (K.functor F).Suited C 8 e e N (SV.doubleReqs c N) := by
  rw [hF.sizes] at he
  obtain ⟨m, h1, h2, -⟩ := hF.member
  have key : ∀ p : Pos, p.r = K.r → p.X = 0 → Suits C e 8 (SV.doubleReqs c N).any N p := by
    intro p hr hX
    refine ⟨Dvd.dvd.mul_right (Nat.dvd_trans (by decide) (dflt_prod he).1) _, ?_⟩
    rcases double_any c N hN with h | ⟨h, h4⟩
    · exact .inl h
    · rw [h]
      refine .inr ⟨Nat.mul_dvd_mul h4 (by decide : 8 ∣ 8), by decide, Dvd.dvd.mul_right (dflt_prod he).1 _, ?_, by rw [hX]; simp⟩
      exact Nat.dvd_trans (by decide : 32 ∣ 8 * 8) (Nat.mul_dvd_mul (Props.C07_multiples d e he).1 (Nat.dvd_refl 8))
  refine ⟨fun j _ => ⟨m, by rw [(gauss_src K F j).2.1]; exact h1, h2⟩, fun j _ => ?_, ⟨m, h1, h2⟩, ⟨_, rfl, key _ rfl rfl⟩⟩
  rw [ite_self]
  exact key _ (gauss_src K F j).2.1 (gauss_src K F j).1

/-- The temperatures are numbers, in both grids. -/
def Gauss.AllNumbers (K : Gauss) (C : Cfg V) (B : Bits 64 V) (W : World V) (s o : Nat) (σ : Loc → V) : Prop :=
  ∀ l, InGrid C W l → (l.s = s ∨ l.s = o) → l.r = K.r → (B.bits (σ l)).isSome = true

theorem gauss_only (K : Gauss) (F : FOps 64) (a b c : Bool) : (K.functor F).code.only a b c = true := by
  simp [Gauss.functor, Gauss.filter, Gauss.taps, Gauss.sums, Expr.only]

theorem arity_facts {N : Nat} (hN : N ∈ [1, 2, 4, 8, 16, 32]) : ((N : Nat) : Int) ∣ (Peel.CTy.unsigned 64).hi := by
  have : ∀ n ∈ [1, 2, 4, 8, 16, 32], ((n : Nat) : Int) ∣ (Peel.CTy.unsigned 64).hi := by decide
  exact this _ hN

/-- C62 for the Gauss filter: on every target, with vectors of any arity and rows of any length, each cell which is at least two cells away
    from the borders of its plane gets the convolution of the old values with the normalised bell, and nothing else changes. -/
theorem C62_gauss (hL : C.L.WF) (c : SV.Cfg) (e1 e : Entry 64) (he1 : e1 ∈ SV.doubleVecs c) (h1 : e1.impl.N = 1)
    (he : e ∈ SV.doubleVecs c) (E : FEnv) (B : Bits 64 V) (base : Nat → Nat) (hbase : ∀ id, 4096 ∣ base id) (K : Gauss) (d ex : Ext)
    (nx ny nz : Nat) (hF : K.Fit C d nx ny nz) (hex : selectSizes C.tr d = .ok ex) (s o : Nat) (hso : s ≠ o) (W : World V)
    (hV : Valid C dv W) (hds : DimsAre C W s d) (hdo : DimsAre C W o d) (hd : d ≠ ⟨0, 0, 0⟩) (σ : Loc → V)
    (hσ : ∀ l, InGrid C W l → ValueIs C W l (σ l)) (hnum : K.AllNumbers C B W s o σ) :
    ∃ σ', Yields C dv W σ' (K.call C B base E e1 e nx ny nz W s o) ∧
      (∀ x y z, Gauss.Inner nx ny nz x y z → σ' ⟨o, x, y, z, K.r, K.k⟩ = K.conv B E.f64 s σ x y z) ∧
      ∀ l : Loc, ¬ (l.s = o ∧ l.r = K.r ∧ l.k = K.k ∧ Gauss.Inner nx ny nz l.x l.y l.z) → σ' l = σ l := by
  have hN := SV.double_arity c e he
  have hhi : (Peel.CTy.unsigned 64).hi = 2 ^ 64 := by decide
  have hx := hF.hx
  have key := C62_double_sizes_partial (dv := dv) hL c e1 e he1 h1 he E B base hbase (K.functor E.f64) (gauss_only K _ _ _ _) s o
    (by intro j _ h; exact absurd h hso) d d ex ex hex hex (.inr rfl) (gauss_suited hF hN hex) (.unsigned 64) (arity_facts hN)
    (Gauss.box nx ny nz) (Int.le_refl 0) (by rw [hhi]; show (nx : Int) < _; exact_mod_cast hx) 0 (by show (0 : Int) ≤ _; omega)
    (by show _ ≤ (nx : Int); omega) W hV hds hdo hd hd σ hσ ((gauss_reach hF hds hdo).inside
      (by rintro l h1 h2 ⟨j, -, hj⟩; exact hnum l h1 h2 (hj.trans (gauss_src K _ j).2.1)))
  rw [gauss_apply K B E.f64 s o hF.lo hF.hy hF.hz] at key
  refine ⟨_, key, fun x y z h => ?_, fun l hl => ?_⟩
  · unfold Gauss.filtered
    rw [if_pos ⟨rfl, rfl, rfl, h⟩]
  · unfold Gauss.filtered
    rw [if_neg hl]

/-- C62 for any number of time steps of the Gauss filter. -/
theorem C62_gauss_steps (hL : C.L.WF) (c : SV.Cfg) (e1 e : Entry 64) (he1 : e1 ∈ SV.doubleVecs c) (h1 : e1.impl.N = 1)
    (he : e ∈ SV.doubleVecs c) (E : FEnv) (B : Bits 64 V) (base : Nat → Nat) (hbase : ∀ id, 4096 ∣ base id) (K : Gauss) (d ex : Ext)
    (nx ny nz : Nat) (hF : K.Fit C d nx ny nz) (hex : selectSizes C.tr d = .ok ex) (s o : Nat) (hso : s ≠ o) (W : World V)
    (hV : Valid C dv W) (hds : DimsAre C W s d) (hdo : DimsAre C W o d) (hd : d ≠ ⟨0, 0, 0⟩) (σ : Loc → V)
    (hσ : ∀ l, InGrid C W l → ValueIs C W l (σ l)) (hnum : K.AllNumbers C B W s o σ) (n : Nat) :
    Yields C dv W ((fun σ => exchange s o (K.filtered B E.f64 s o nx ny nz σ))^[n] σ) (K.steps C B base E e1 e nx ny nz s o n W) := by
  have hN := SV.double_arity c e he
  have hhi : (Peel.CTy.unsigned 64).hi = 2 ^ 64 := by decide
  have hx := hF.hx
  have key := C62_double_sizes_steps_partial (dv := dv) hL c e1 e he1 h1 he E B base hbase (K.functor E.f64) (gauss_only K _ _ _ _) s o hso
    (by intro j _ h; exact absurd h hso) d ex hex (gauss_suited hF hN hex) (.unsigned 64) (arity_facts hN)
    (Gauss.box nx ny nz) (Int.le_refl 0) (by rw [hhi]; show (nx : Int) < _; exact_mod_cast hx) 0 (by show (0 : Int) ≤ _; omega)
    (by show _ ≤ (nx : Int); omega) W hV hds hdo hd σ hσ (gauss_reach hF hds hdo)
    (by rintro l h1 h2 ⟨j, -, hj⟩; exact hnum l h1 h2 (hj.trans (gauss_src K _ j).2.1)) n
  rw [show (fun σ => exchange s o (K.filtered B E.f64 s o nx ny nz σ)) = fun σ => exchange s o ((K.functor E.f64).apply B E.f64 s o (Gauss.box nx ny nz) σ)
    from funext fun σ => by rw [gauss_apply K B E.f64 s o hF.lo hF.hy hF.hz]]
  exact key

/-- C64 for the Gauss filter: the same with any number of threads, however they split the loop and take turns. All threads can finish. -/
theorem C64_gauss_steps (hL : C.L.WF) (c : SV.Cfg) (e1 e : Entry 64) (he1 : e1 ∈ SV.doubleVecs c) (h1 : e1.impl.N = 1)
    (he : e ∈ SV.doubleVecs c) (E : FEnv) (B : Bits 64 V) (base : Nat → Nat) (hbase : ∀ id, 4096 ∣ base id) (K : Gauss) (d ex : Ext)
    (nx ny nz : Nat) (hF : K.Fit C d nx ny nz) (hex : selectSizes C.tr d = .ok ex) (s o : Nat) (hso : s ≠ o) (W : World V)
    (hV : Valid C dv W) (hds : DimsAre C W s d) (hdo : DimsAre C W o d) (hd : d ≠ ⟨0, 0, 0⟩) (σ : Loc → V)
    (hσ : ∀ l, InGrid C W l → ValueIs C W l (σ l)) (hnum : K.AllNumbers C B W s o σ) (n : Nat) (zs : Nat → List Int)
    (hz : Splits ⟨0, nx, 2, ny - 2, 2, nz - 2⟩ n zs) (scheds : List (List Nat)) :
    (∀ r, K.stepsPar C B base E e1 e nx ny nz n zs s o scheds W = some r →
      Yields C dv W ((fun σ => exchange s o (K.filtered B E.f64 s o nx ny nz σ))^[scheds.length] σ) r) ∧
    ∃ scheds' : List (List Nat), scheds'.length = scheds.length ∧ (∀ i (h : i < scheds.length) (h' : i < scheds'.length), scheds[i] <+: scheds'[i]) ∧
      (K.stepsPar C B base E e1 e nx ny nz n zs s o scheds' W).isSome = true := by
  have hN := SV.double_arity c e he
  have hhi : (Peel.CTy.unsigned 64).hi = 2 ^ 64 := by decide
  have hx := hF.hx
  have key := C64_double_sizes_steps_partial (dv := dv) hL c e1 e he1 h1 he E B base hbase (K.functor E.f64) (gauss_only K _ _ _ _) s o hso
    (by intro j _ h; exact absurd h hso) d ex hex (gauss_suited hF hN hex) (.unsigned 64) (arity_facts hN)
    (Gauss.box nx ny nz) (Int.le_refl 0) (by rw [hhi]; show (nx : Int) < _; exact_mod_cast hx) 0 (by show (0 : Int) ≤ _; omega)
    (by show _ ≤ (nx : Int); omega) n zs (by rw [gauss_box hF.lo hF.hy hF.hz]; exact hz) W hV hds hdo hd σ hσ (gauss_reach hF hds hdo)
    (by rintro l h1 h2 ⟨j, -, hj⟩; exact hnum l h1 h2 (hj.trans (gauss_src K _ j).2.1)) scheds
  rw [show (fun σ => exchange s o (K.filtered B E.f64 s o nx ny nz σ)) = fun σ => exchange s o ((K.functor E.f64).apply B E.f64 s o (Gauss.box nx ny nz) σ)
    from funext fun σ => by rw [gauss_apply K B E.f64 s o hF.lo hF.hy hF.hz]]
  exact key

/-! ### The hypotheses can be met -/
namespace GaussDemo
open Silver (dC dB base hL world)

/-- Made-up values for squared distances 0, 1, 2, 4, 5 and 8. -/
def gK : Gauss where
  raw := fun q => if q = 0 then 0x3fc45f306dc9c883 else if q = 1 then 0x3fb8b6ee1a3ba5b8 else if q = 2 then 0x3fadfb2ec4d5b9a3
    else if q = 4 then 0x3f960e4e2d3a7c3e else if q = 5 then 0x3f8ac12bd2a5b5ab else 0x3f67e2b0e5d5a4a9
  r := 0
  k := 0

theorem fit : gK.Fit dC ⟨24, 6, 6⟩ 23 6 6 :=
  ⟨rfl, ⟨_, rfl, rfl, by decide⟩, by decide, by decide, by decide, by decide, by decide, by decide, by decide⟩

theorem vecs : ∃ e1 ∈ SV.doubleVecs .qpx, e1.impl.N = 1 ∧ ∃ e ∈ SV.doubleVecs .qpx, e.impl.N = 4 :=
  ⟨_, List.mem_cons_self, rfl, _, List.mem_cons_of_mem _ (List.mem_cons_of_mem _ List.mem_cons_self), rfl⟩

/-- One call and 50 steps on QPX with vectors of 4 `double`s, in rows of 23 cells. -/
example : ∃ e1 e W σ, e.impl.N = 4 ∧
    (∃ σ', Yields dC 0 W σ' (gK.call dC dB base FEnv.demo e1 e 23 6 6 W 0 1) ∧ σ' ⟨1, 22, 2, 3, 0, 0⟩ = gK.conv dB FEnv.demo.f64 0 σ 22 2 3) ∧
    Yields dC 0 W ((fun σ => exchange 0 1 (gK.filtered dB FEnv.demo.f64 0 1 23 6 6 σ))^[50] σ)
      (gK.steps dC dB base FEnv.demo e1 e 23 6 6 0 1 50 W) := by
  obtain ⟨W, σ, hV, h0, h1, hσ, -⟩ := world
  obtain ⟨e1, he1, hn1, e, he, hn⟩ := vecs
  obtain ⟨σ', k1, k2, -⟩ := C62_gauss hL .qpx e1 e he1 hn1 he FEnv.demo dB base Gold.base4096 gK ⟨24, 6, 6⟩ ⟨32, 32, 32⟩ 23 6 6
    fit (by decide) 0 1 (by decide) W hV h0 h1 (by decide) σ hσ (fun _ _ _ _ => rfl)
  exact ⟨e1, e, W, σ, hn, ⟨σ', k1, k2 22 2 3 (by decide)⟩, C62_gauss_steps hL .qpx e1 e he1 hn1 he FEnv.demo dB base Gold.base4096 gK ⟨24, 6, 6⟩
    ⟨32, 32, 32⟩ 23 6 6 fit (by decide) 0 1 (by decide) W hV h0 h1 (by decide) σ hσ (fun _ _ _ _ => rfl) 50⟩

theorem splits : ∃ zs, Splits ⟨0, (23 : Nat), 2, (6 : Nat) - 2, 2, (6 : Nat) - 2⟩ 2 zs :=
  ⟨_, Splits.contiguous ⟨0, (23 : Nat), 2, (6 : Nat) - 2, 2, (6 : Nat) - 2⟩ 2 (fun i => if i = 0 then 2 else if i = 1 then 3 else 4) rfl rfl (by decide)⟩

/-- Two steps by two threads, however they take turns. -/
example : ∃ e1 e W σ zs, ∀ s1 s2 r, gK.stepsPar dC dB base FEnv.demo e1 e 23 6 6 2 zs 0 1 [s1, s2] W = some r →
    Yields dC 0 W ((fun σ => exchange 0 1 (gK.filtered dB FEnv.demo.f64 0 1 23 6 6 σ))^[2] σ) r := by
  obtain ⟨W, σ, hV, h0, h1, hσ, -⟩ := world
  obtain ⟨e1, he1, hn1, e, he, hn⟩ := vecs
  obtain ⟨zs, hz⟩ := splits
  exact ⟨e1, e, W, σ, zs, fun s1 s2 => (C64_gauss_steps hL .qpx e1 e he1 hn1 he FEnv.demo dB base Gold.base4096 gK ⟨24, 6, 6⟩
    ⟨32, 32, 32⟩ 23 6 6 fit (by decide) 0 1 (by decide) W hV h0 h1 (by decide) σ hσ (fun _ _ _ _ => rfl) 2 zs hz [s1, s2]).1⟩

end GaussDemo

end LFA.GK
