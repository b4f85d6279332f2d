/-
  C62 for grids with arbitrary sizes, e.g. those of LIBFLATARRAY_CUSTOM_SIZES.
-/
import Verif.Props.GridKernel
set_option linter.unusedSectionVars false
namespace LFA.GK
open SV (Expr Entry FEnv Mem Writes Faithful Transfers Reqs lane FOps)
open Thr (Loc Ref InGrid ValueIs)

variable {V : Type} [DecidableEq V] {C : Cfg V} {dv : V} {w : Nat}

/-- Sizes which suit accesses to the member at `p` by vectors of `N` elements of `n` bytes, at addresses which have to be multiples of `al`:
    the arrays of the member start at multiples of `n`, and so do rows, if instructions demand it, at multiples of `al`. -/
def Suits (C : Cfg V) (e : Ext) (n al N : Nat) (p : Pos) : Prop :=
  n ∣ e.x * e.y * e.z * offset C.L p.r ∧
    (al = 1 ∨ al ∣ N * n ∧ al ∣ 4096 ∧ al ∣ e.x * e.y * e.z * offset C.L p.r ∧ al ∣ e.x * n ∧ (al : Int) ∣ p.X * n)

theorem addr_row (L : Layout V) (base : Nat) (e : Ext) (x y z : Int) (p : Pos) (m : Member V) :
    ∃ q : Int, addr L base e x y z p m = base + ((e.x * e.y * e.z * offset L p.r : Nat) : Int) + (e.x * q + (x + p.X)) * m.ty.size := by
  unfold addr Acc.userRef
  cases hm : m.arity with
  | none =>
    refine ⟨z * e.y + y + p.Z * e.y + p.Y, ?_⟩
    simp only [Acc.member, Acc.shift, accAt, genIndex, hm, Ext.prod]
    push_cast; ring
  | some _ =>
    refine ⟨z * e.y + y + p.Z * e.y + p.Y + p.k * (e.y * e.z), ?_⟩
    simp only [Acc.arrayRef, Acc.member, Acc.shift, accAt, genIndex, hm, Ext.prod]
    push_cast; ring

theorem Suits.fine {e : Ext} {base : Nat} (hbase : 4096 ∣ base) {p : Pos} {m : Member V} (hm : C.L[p.r]? = some m) (hsz : m.ty.size = w / 8)
    (h32 : w / 8 ∣ 32) {al N : Nat} (h : Suits C e (w / 8) al N p) (b : Box) : Fine C w base e al b p := by
  refine ⟨m, hm, hsz, Nat.dvd_trans (Nat.dvd_trans h32 (by decide)) hbase, h.1, ?_⟩
  intro y z _ _ _ _
  rcases h.2 with rfl | ⟨h1, h2, h3, h4, h5⟩
  · exact ⟨_, (Int.one_mul _).symm⟩
  · obtain ⟨q, hq⟩ := addr_row C.L base e 0 y z p m
    rw [hq, hsz, Int.zero_add, Int.add_mul]
    refine Int.dvd_add (Int.dvd_add (Int.natCast_dvd_natCast.2 (Nat.dvd_trans h2 hbase)) (Int.natCast_dvd_natCast.2 h3)) (Int.dvd_add ?_ h5)
    obtain ⟨k, hk⟩ := h4
    refine ⟨k * q, ?_⟩
    have hk' : (e.x : Int) * ((w / 8 : Nat) : Int) = al * k := by exact_mod_cast hk
    calc (e.x : Int) * q * ((w / 8 : Nat) : Int) = (e.x : Int) * ((w / 8 : Nat) : Int) * q := by ring
      _ = al * (k * q) := by rw [hk']; ring

/-- All accesses of a functor meet the demands of the instructions. -/
structure Stencil.Suited (K : Stencil w) (C : Cfg V) (n : Nat) (es et : Ext) (N : Nat) (Q : Reqs) : Prop where
  srcs : ∀ j ∈ K.code.vars, MemberSize C (K.src j).r n
  src : ∀ j ∈ K.code.vars, Suits C (if K.new j then et else es) n (K.mode.loadReq Q) N (K.src j)
  dsts : MemberSize C K.dst.r n
  dst : ∃ al, K.mode.storeReq Q = some al ∧ Suits C et n al N K.dst

theorem Stencil.Suited.accesses {K : Stencil w} (h32 : w / 8 ∣ 32) {es et : Ext} {N : Nat} {Q1 Q : Reqs}
    (h : K.Suited C (w / 8) es et N Q) (hQ1 : K.mode.loadReq Q1 = 1) (hQ1' : K.mode.storeReq Q1 = some 1)
    (hQ : K.mode.loadReq Q ∣ N * (w / 8)) {base : Nat → Nat} (hbase : ∀ id, 4096 ∣ base id) (b : Box) (ids idt : Nat) :
    K.Accesses C base ⟨es, et, ids, idt⟩ b N Q1 Q where
  load1 := by rw [hQ1]; exact Nat.one_dvd _
  store1 := ⟨1, hQ1', Nat.one_dvd _⟩
  load := hQ
  src := fun j hj => by
    obtain ⟨m, h1, h2⟩ := h.srcs j hj
    exact (h.src j hj).fine (hbase _) h1 h2 h32 b
  store := by
    obtain ⟨m, h1, h2⟩ := h.dsts
    obtain ⟨al, h3, h4⟩ := h.dst
    refine ⟨al, h3, ?_, h4.fine (hbase _) h1 h2 h32 b⟩
    rcases h4.2 with rfl | h4
    · exact Nat.one_dvd _
    · exact h4.1

theorem float_sizes (hL : C.L.WF) (c : SV.Cfg) (e1 e : Entry 32) (he1 : e1 ∈ SV.floatVecs c) (h1 : e1.impl.N = 1)
    (he : e ∈ SV.floatVecs c) (E : FEnv) (B : Bits 32 V) (base : Nat → Nat) (hbase : ∀ id, 4096 ∣ base id) (K : Stencil 32)
    (hk : K.code.only (SV.exactDiv c e.impl.N) (!SV.usesNeon c e.impl.N) (SV.hasFloatCmp c e.impl.N) = true) (s o : Nat) (hsafe : K.Safe s o)
    (ds dt es et : Ext) (hes : selectSizes C.tr ds = .ok es) (het : selectSizes C.tr dt = .ok et) (hsym : C.asym = true ∨ ds = dt)
    (hal : K.Suited C 4 es et e.impl.N (SV.floatReqs c e.impl.N))
    (t : Peel.CTy) (b : Box) (xe : Int) (hruns : Runs t e.impl.N b.x0 b.x1 xe)
    (W : World V) (hV : Valid C dv W) (hds : DimsAre C W s ds) (hdt : DimsAre C W o dt) (hns : ds ≠ ⟨0, 0, 0⟩) (hnt : dt ≠ ⟨0, 0, 0⟩)
    (σ : Loc → V) (hσ : ∀ l, InGrid C W l → ValueIs C W l (σ l)) (hin : K.Inside B s o { b with x1 := xe } (InGrid C W) σ) :
    Yields C dv W (K.apply B E.f32 s o { b with x1 := xe } σ) (update C B base E K t e1 e b W s o) := by
  have hN := SV.float_arity c e he
  have hpos : 0 < e.impl.N := by
    have : ∀ n ∈ [1, 2, 4, 8, 16, 32], 0 < n := by decide
    exact this _ hN
  have H := SV.float_faithful c e he E
  rw [SV.C45_float_available c e he] at H
  have H1 := SV.float_faithful c e1 he1 E
  rw [SV.C45_float_available c e1 he1] at H1
  refine update_ok hL B base E (H1.weaken ?_ ?_ ?_) H (SV.C46_float_partial c e1 he1 E) (SV.C46_float_partial c e he E) h1 hpos (by decide) hk hsafe t
    hruns hes het hsym
    (fun ids idt => hal.accesses (by decide) ?_ ?_ ?_ hbase b ids idt) hV hds hdt hns hnt hσ hin
  · rw [h1]; intro _; rfl
  · rw [h1]; intro _; simp only [SV.usesNeon]; rfl
  · rw [h1]; intro _; cases c <;> rfl
  · rw [h1]; cases K.mode <;> rfl
  · rw [h1]; cases K.mode <;> rfl
  · have : ∀ M : Mode, ∀ n ∈ [1, 2, 4, 8, 16, 32], M.loadReq (SV.floatReqs c n) ∣ n * 4 := by intro M; cases c <;> cases M <;> decide
    exact this _ _ hN

/-- C62 for `float`s in grids with any sizes, e.g. custom ones, which suit the accesses. Missing: ranges along x which do not contain a multiple of
    the arity (C62_false), divisions where the target has approximate ones only (C56_false_div), sizes which do not suit (C62_false_sizes). -/
theorem C62_float_sizes_partial (hL : C.L.WF) (c : SV.Cfg) (e1 e : Entry 32) (he1 : e1 ∈ SV.floatVecs c) (h1 : e1.impl.N = 1)
    (he : e ∈ SV.floatVecs c) (E : FEnv) (B : Bits 32 V) (base : Nat → Nat) (hbase : ∀ id, 4096 ∣ base id) (K : Stencil 32)
    (hk : K.code.only (SV.exactDiv c e.impl.N) (!SV.usesNeon c e.impl.N) (SV.hasFloatCmp c e.impl.N) = true) (s o : Nat) (hsafe : K.Safe s o)
    (ds dt es et : Ext) (hes : selectSizes C.tr ds = .ok es) (het : selectSizes C.tr dt = .ok et) (hsym : C.asym = true ∨ ds = dt)
    (hal : K.Suited C 4 es et e.impl.N (SV.floatReqs c e.impl.N))
    (t : Peel.CTy) (ht : (e.impl.N : Int) ∣ t.hi) (b : Box) (hx : 0 ≤ b.x0) (hstop : b.x1 < t.hi)
    (q : Int) (hq : b.x0 ≤ e.impl.N * q) (hq' : e.impl.N * q ≤ b.x1)
    (W : World V) (hV : Valid C dv W) (hds : DimsAre C W s ds) (hdt : DimsAre C W o dt) (hns : ds ≠ ⟨0, 0, 0⟩) (hnt : dt ≠ ⟨0, 0, 0⟩)
    (σ : Loc → V) (hσ : ∀ l, InGrid C W l → ValueIs C W l (σ l)) (hin : K.Inside B s o b (InGrid C W) σ) :
    Yields C dv W (K.apply B E.f32 s o b σ) (update C B base E K t e1 e b W s o) := by
  have hpos : 0 < e.impl.N := by
    have : ∀ n ∈ [1, 2, 4, 8, 16, 32], 0 < n := by decide
    exact this _ (SV.float_arity c e he)
  exact float_sizes hL c e1 e he1 h1 he E B base hbase K hk s o hsafe ds dt es et hes het hsym hal t b b.x1
    (runs_peeled (C37_partial t e.impl.N hpos ht b.x0 b.x1 hx hstop q hq hq')) W hV hds hdt hns hnt σ hσ hin

theorem double_sizes (hL : C.L.WF) (c : SV.Cfg) (e1 e : Entry 64) (he1 : e1 ∈ SV.doubleVecs c) (h1 : e1.impl.N = 1)
    (he : e ∈ SV.doubleVecs c) (E : FEnv) (B : Bits 64 V) (base : Nat → Nat) (hbase : ∀ id, 4096 ∣ base id) (K : Stencil 64)
    (hk : K.code.only (!decide (c = .qpx ∧ 2 < e.impl.N)) (!decide (c = .qpx ∧ 2 < e.impl.N)) (SV.hasDoubleCmp c e.impl.N) = true)
    (s o : Nat) (hsafe : K.Safe s o)
    (ds dt es et : Ext) (hes : selectSizes C.tr ds = .ok es) (het : selectSizes C.tr dt = .ok et) (hsym : C.asym = true ∨ ds = dt)
    (hal : K.Suited C 8 es et e.impl.N (SV.doubleReqs c e.impl.N))
    (t : Peel.CTy) (b : Box) (xe : Int) (hruns : Runs t e.impl.N b.x0 b.x1 xe)
    (W : World V) (hV : Valid C dv W) (hds : DimsAre C W s ds) (hdt : DimsAre C W o dt) (hns : ds ≠ ⟨0, 0, 0⟩) (hnt : dt ≠ ⟨0, 0, 0⟩)
    (σ : Loc → V) (hσ : ∀ l, InGrid C W l → ValueIs C W l (σ l)) (hin : K.Inside B s o { b with x1 := xe } (InGrid C W) σ) :
    Yields C dv W (K.apply B E.f64 s o { b with x1 := xe } σ) (update C B base E K t e1 e b W s o) := by
  have hN := SV.double_arity c e he
  have hpos : 0 < e.impl.N := by
    have : ∀ n ∈ [1, 2, 4, 8, 16, 32], 0 < n := by decide
    exact this _ hN
  have H := SV.double_faithful c e he E
  rw [SV.C45_double_available c e he] at H
  have H1 := SV.double_faithful c e1 he1 E
  rw [SV.C45_double_available c e1 he1] at H1
  refine update_ok hL B base E (H1.weaken ?_ ?_ ?_) H (SV.C46_double_partial c e1 he1 E) (SV.C46_double_partial c e he E) h1 hpos (by decide) hk hsafe t
    hruns hes het hsym
    (fun ids idt => hal.accesses (by decide) ?_ ?_ ?_ hbase b ids idt) hV hds hdt hns hnt hσ hin
  · rw [h1]; intro _; simp
  · rw [h1]; intro _; simp
  · rw [h1]; intro _; cases c <;> rfl
  · rw [h1]; cases c <;> cases K.mode <;> rfl
  · rw [h1]; cases c <;> cases K.mode <;> rfl
  · have : ∀ M : Mode, ∀ n ∈ [1, 2, 4, 8, 16, 32], M.loadReq (SV.doubleReqs c n) ∣ n * 8 := by intro M; cases c <;> cases M <;> decide
    exact this _ _ hN

/-- C62 for `double`s in grids with any sizes which suit the accesses. -/
theorem C62_double_sizes_partial (hL : C.L.WF) (c : SV.Cfg) (e1 e : Entry 64) (he1 : e1 ∈ SV.doubleVecs c) (h1 : e1.impl.N = 1)
    (he : e ∈ SV.doubleVecs c) (E : FEnv) (B : Bits 64 V) (base : Nat → Nat) (hbase : ∀ id, 4096 ∣ base id) (K : Stencil 64)
    (hk : K.code.only (!decide (c = .qpx ∧ 2 < e.impl.N)) (!decide (c = .qpx ∧ 2 < e.impl.N)) (SV.hasDoubleCmp c e.impl.N) = true)
    (s o : Nat) (hsafe : K.Safe s o)
    (ds dt es et : Ext) (hes : selectSizes C.tr ds = .ok es) (het : selectSizes C.tr dt = .ok et) (hsym : C.asym = true ∨ ds = dt)
    (hal : K.Suited C 8 es et e.impl.N (SV.doubleReqs c e.impl.N))
    (t : Peel.CTy) (ht : (e.impl.N : Int) ∣ t.hi) (b : Box) (hx : 0 ≤ b.x0) (hstop : b.x1 < t.hi)
    (q : Int) (hq : b.x0 ≤ e.impl.N * q) (hq' : e.impl.N * q ≤ b.x1)
    (W : World V) (hV : Valid C dv W) (hds : DimsAre C W s ds) (hdt : DimsAre C W o dt) (hns : ds ≠ ⟨0, 0, 0⟩) (hnt : dt ≠ ⟨0, 0, 0⟩)
    (σ : Loc → V) (hσ : ∀ l, InGrid C W l → ValueIs C W l (σ l)) (hin : K.Inside B s o b (InGrid C W) σ) :
    Yields C dv W (K.apply B E.f64 s o b σ) (update C B base E K t e1 e b W s o) := by
  have hpos : 0 < e.impl.N := by
    have : ∀ n ∈ [1, 2, 4, 8, 16, 32], 0 < n := by decide
    exact this _ (SV.double_arity c e he)
  exact double_sizes hL c e1 e he1 h1 he E B base hbase K hk s o hsafe ds dt es et hes het hsym hal t b b.x1
    (runs_peeled (C37_partial t e.impl.N hpos ht b.x0 b.x1 hx hstop q hq hq')) W hV hds hdt hns hnt σ hσ hin

/-- C62 for time steps on `float`s, in grids with any sizes which suit the accesses. -/
theorem C62_float_sizes_steps_partial (hL : C.L.WF) (c : SV.Cfg) (e1 e : Entry 32) (he1 : e1 ∈ SV.floatVecs c)
    (h1 : e1.impl.N = 1) (he : e ∈ SV.floatVecs c) (E : FEnv) (B : Bits 32 V) (base : Nat → Nat) (hbase : ∀ id, 4096 ∣ base id)
    (K : Stencil 32) (hk : K.code.only (SV.exactDiv c e.impl.N) (!SV.usesNeon c e.impl.N) (SV.hasFloatCmp c e.impl.N) = true)
    (s o : Nat) (hso : s ≠ o) (hsafe : K.Safe s o) (d ex : Ext) (hex : selectSizes C.tr d = .ok ex)
    (hal : K.Suited C 4 ex ex e.impl.N (SV.floatReqs c e.impl.N))
    (t : Peel.CTy) (ht : (e.impl.N : Int) ∣ t.hi) (b : Box) (hx : 0 ≤ b.x0) (hstop : b.x1 < t.hi)
    (q : Int) (hq : b.x0 ≤ e.impl.N * q) (hq' : e.impl.N * q ≤ b.x1)
    (W : World V) (hV : Valid C dv W) (hds : DimsAre C W s d) (hdt : DimsAre C W o d) (hd : d ≠ ⟨0, 0, 0⟩)
    (σ : Loc → V) (hσ : ∀ l, InGrid C W l → ValueIs C W l (σ l)) (hin : K.Reach s o b (InGrid C W)) (hnum : K.Numbers B s o (InGrid C W) σ)
    (n : Nat) :
    Yields C dv W ((fun σ => exchange s o (K.apply B E.f32 s o b σ))^[n] σ) (timeSteps C B base E K t e1 e b s o n W) :=
  steps_ok hL B base E K e1 e E.f32 hso b t hd (fun W σ hV hs ho hσ hin => C62_float_sizes_partial hL c e1 e he1 h1 he E B base hbase K hk s o
    hsafe d d ex ex hex hex (.inr rfl) hal t ht b hx hstop q hq hq' W hV hs ho hd hd σ hσ hin) n W σ hV hds hdt hσ hin hnum

/-- C62 for time steps on `double`s, in grids with any sizes which suit the accesses. -/
theorem C62_double_sizes_steps_partial (hL : C.L.WF) (c : SV.Cfg) (e1 e : Entry 64) (he1 : e1 ∈ SV.doubleVecs c)
    (h1 : e1.impl.N = 1) (he : e ∈ SV.doubleVecs c) (E : FEnv) (B : Bits 64 V) (base : Nat → Nat) (hbase : ∀ id, 4096 ∣ base id)
    (K : Stencil 64) (hk : K.code.only (!decide (c = .qpx ∧ 2 < e.impl.N)) (!decide (c = .qpx ∧ 2 < e.impl.N))
      (SV.hasDoubleCmp c e.impl.N) = true)
    (s o : Nat) (hso : s ≠ o) (hsafe : K.Safe s o) (d ex : Ext) (hex : selectSizes C.tr d = .ok ex)
    (hal : K.Suited C 8 ex ex e.impl.N (SV.doubleReqs c e.impl.N))
    (t : Peel.CTy) (ht : (e.impl.N : Int) ∣ t.hi) (b : Box) (hx : 0 ≤ b.x0) (hstop : b.x1 < t.hi)
    (q : Int) (hq : b.x0 ≤ e.impl.N * q) (hq' : e.impl.N * q ≤ b.x1)
    (W : World V) (hV : Valid C dv W) (hds : DimsAre C W s d) (hdt : DimsAre C W o d) (hd : d ≠ ⟨0, 0, 0⟩)
    (σ : Loc → V) (hσ : ∀ l, InGrid C W l → ValueIs C W l (σ l)) (hin : K.Reach s o b (InGrid C W)) (hnum : K.Numbers B s o (InGrid C W) σ)
    (n : Nat) :
    Yields C dv W ((fun σ => exchange s o (K.apply B E.f64 s o b σ))^[n] σ) (timeSteps C B base E K t e1 e b s o n W) :=
  steps_ok hL B base E K e1 e E.f64 hso b t hd (fun W σ hV hs ho hσ hin => C62_double_sizes_partial hL c e1 e he1 h1 he E B base hbase K hk s o
    hsafe d d ex ex hex hex (.inr rfl) hal t ht b hx hstop q hq hq' W hV hs ho hd hd σ hσ hin) n W σ hV hds hdt hσ hin hnum

/-- C62 is false for sizes which do not suit: if the arrays of the member which is written start at addresses that are no multiples of the
    member's size, then every functor of this kind is undefined behaviour, with all vectors and for all ranges with cells. -/
theorem C62_false_sizes (hL : C.L.WF) (E : FEnv) (B : Bits w V) (base : Nat → Nat) (hbase : ∀ id, 4096 ∣ base id) (h32 : w / 8 ∣ 32) (K : Stencil w)
    (e1 e : Entry w) (d ex : Ext) (hex : selectSizes C.tr d = .ok ex) (hd : d ≠ ⟨0, 0, 0⟩)
    (hmis : ¬ w / 8 ∣ ex.x * ex.y * ex.z * offset C.L K.dst.r) (t : Peel.CTy) (b : Box)
    (hruns : Runs t e.impl.N b.x0 b.x1 b.x1) (hx : b.x0 < b.x1) (hy : b.y0 < b.y1) (hz : b.z0 < b.z1)
    (W : World V) (hV : Valid C dv W) (s o : Nat) (hs : DimsAre C W s d) (ho : DimsAre C W o d) :
    update C B base E K t e1 e b W s o = .error .oob := by
  obtain ⟨a, hR⟩ := hV.refines hL
  obtain ⟨ids, gs, i1, i2, i3, i4⟩ := has_of_dims hR hs hd hex
  obtain ⟨idt, gt, j1, j2, j3, j4⟩ := has_of_dims hR ho hd hex
  have hbody : ∀ (A : Pair) (e' : Entry w) (x y z : Int) (h : Heap V), A.et = ex → body ⟨C.L, B, base, E⟩ K A e' x y z h = none := by
    intro A e' x y z h hA
    unfold body
    cases K.code.vec e'.impl e'.cmp E (load ⟨C.L, B, base, E⟩ K A e' h x y z) with
    | none => rfl
    | some v =>
      simp only [Option.bind_some]
      cases hm : C.L[K.dst.r]? with
      | none => rfl
      | some m =>
        cases h.blk A.idt with
        | none => rfl
        | some blk =>
          have : elem (w := w) C.L (base A.idt) A.et x y z K.dst m = none := by
            unfold elem
            rw [if_neg]
            rintro ⟨h1, h2⟩
            obtain ⟨q, hq⟩ := addr_row C.L (base A.idt) A.et x y z K.dst m
            rw [hq, h1, hA] at h2
            have h3 : ((w / 8 : Nat) : Int) ∣ (base A.idt : Int) :=
              Int.natCast_dvd_natCast.2 (Nat.dvd_trans (Nat.dvd_trans h32 (by decide)) (hbase _))
            have h4 := (Int.dvd_add_right h3).1 ((Int.dvd_add_left (Dvd.intro_left _ rfl)).1 h2)
            exact hmis (Int.natCast_dvd_natCast.1 h4)
          simp only [this, Option.bind_none]
  have hrows : ∃ y z rs, b.rows = (y, z) :: rs := by
    cases hr : b.rows with
    | nil =>
      have := (Box.mem_rows (b := b) (y := b.y0) (z := b.z0)).2 ⟨le_refl _, hy, le_refl _, hz⟩
      rw [hr] at this; cases this
    | cons p rs => exact ⟨p.1, p.2, rs, rfl⟩
  obtain ⟨y, z, rs, hr⟩ := hrows
  obtain ⟨pc, stop, hp, hv, -⟩ := hruns
  have hpc : ∃ c cs, pc = c :: cs := by
    cases pc with
    | cons c cs => exact ⟨c, cs, rfl⟩
    | nil =>
      have h0 : 0 < (b.x1 - b.x0).toNat := by omega
      obtain ⟨k, hk⟩ : ∃ k, (b.x1 - b.x0).toNat = k + 1 := ⟨_, (Nat.succ_pred_eq_of_pos h0).symm⟩
      rw [hk] at hv
      simp [Peel.visits, Peel.iota] at hv
  obtain ⟨c, cs, rfl⟩ := hpc
  have hsweep : ∀ (A : Pair) (h : Heap V), A.et = ex → sweep ⟨C.L, B, base, E⟩ K A t e1 e b b.rows h = none := by
    intro A h hA
    rw [hr]
    simp only [sweep, rowCalls, hp, Option.map_some, Option.bind_some, List.map_cons, calls, hbody A _ _ _ _ h hA, Option.bind_none]
  have hsw := hsweep ⟨ex, ex, ids, idt⟩ W.h rfl
  simp only [update, World.withG, i1, j1, Grid.dualCallback, i2, j2, hex, i3, j3, Option.getD_some, hsw]
  cases C.asym <;> simp [World.ofH]

/-! ### The hypotheses can be met -/
namespace Sized

/-- struct { char tag; double temp; } with one custom size. Values are bit patterns. -/
def dC (nx ny nz : Nat) : Cfg (BitVec 64) := ⟨[⟨⟨1, true⟩, none, 0⟩, ⟨⟨8, true⟩, none, 0⟩], .custom [nx] [ny] [nz], false⟩

theorem hL (nx ny nz : Nat) : (dC nx ny nz).L.WF := by
  intro m hm
  simp only [dC, List.mem_cons, List.not_mem_nil, or_false] at hm
  rcases hm with rfl | rfl <;> simp [Member.elems]

def B : Bits 64 (BitVec 64) := ⟨id, some, fun _ => rfl⟩

/-- temp = old.temp[-1, 0, 0] * old.temp[0, 1, 0] -/
def K : Stencil 64 where
  code := .mul (.var 0) (.var 1)
  new := fun _ => false
  src := fun j => if j = 0 then ⟨-1, 0, 0, 1, 0⟩ else ⟨0, 1, 0, 1, 0⟩
  dst := ⟨0, 0, 0, 1, 0⟩
  mode := .plain

theorem world (nx ny nz : Nat) (d e : Ext) (hd : d ≠ ⟨0, 0, 0⟩) (he : selectSizes (.custom [nx] [ny] [nz]) d = .ok e) :
    ∃ W, Valid (dC nx ny nz) 0 W ∧ DimsAre (dC nx ny nz) W 0 d ∧ DimsAre (dC nx ny nz) W 1 d := by
  have hleg : Spec.Legal (dC nx ny nz) 0 Spec.start [.new 0 d, .new 1 d] :=
    .new rfl hd he (.new (by simp [World.upd, Spec.start]) hd he .nil)
  obtain ⟨W, outs, a, h1, h2, h3, -⟩ := run_refines (C := dC nx ny nz) (dv := 0) (hL _ _ _) R.init [.new 0 d, .new 1 d] []
    (by rw [List.append_nil]; exact hleg)
  refine ⟨W, ⟨_, _, hleg, h1⟩, ?_⟩
  cases h2 with
  | cons p1 r1 =>
    cases r1 with
    | cons p2 r2 =>
      cases r2
      cases p1 with
      | newBlank => exact absurd rfl hd
      | newFail _ _ _ _ hx => exact absurd (hx.symm.trans he) (by simp)
      | new _ _ e' _ he' =>
        cases p2 with
        | newBlank => exact absurd rfl hd
        | newFail _ _ _ _ hx => exact absurd (hx.symm.trans he) (by simp)
        | new _ _ e'' _ he'' => exact ⟨h3.dims ((upd_ne _ _ (show (0 : Nat) ≠ 1 by decide)).trans (upd_self _ _ _)), h3.dims (upd_self _ _ _)⟩

theorem vecs : ∃ e1 ∈ SV.doubleVecs .avx, e1.impl.N = 1 ∧ ∃ e ∈ SV.doubleVecs .avx, e.impl.N = 4 :=
  ⟨_, List.mem_cons_self, rfl, _, List.mem_cons_of_mem _ (List.mem_cons_of_mem _ List.mem_cons_self), rfl⟩

theorem suited (N : Nat) : K.Suited (dC 21 6 4) 8 ⟨21, 6, 4⟩ ⟨21, 6, 4⟩ N (SV.doubleReqs .avx N) := by
  have h1 : (SV.doubleReqs .avx N).any = 1 := by simp only [SV.doubleReqs]; (repeat' split) <;> rfl
  have h2 : ∀ j, (K.src j).r = 1 := fun j => by unfold K; simp only; split <;> rfl
  refine ⟨fun j _ => ⟨_, by rw [h2]; rfl, rfl⟩, fun j _ => ⟨?_, .inl h1⟩, ⟨_, rfl, rfl⟩, ⟨1, by show some _ = some 1; rw [h1], by decide, .inl rfl⟩⟩
  rw [h2, ite_self]
  decide

theorem reach {W : World (BitVec 64)} (h0 : DimsAre (dC 21 6 4) W 0 ⟨20, 6, 4⟩) (h1 : DimsAre (dC 21 6 4) W 1 ⟨20, 6, 4⟩) :
    K.Reach 0 1 ⟨1, 20, 0, 5, 0, 4⟩ (InGrid (dC 21 6 4) W) := by
  intro x y z hb
  simp only [Box.Has] at hb
  refine ⟨⟨_, _, h1, rfl, by show (0 : Nat) < 1; decide, by simp [Stencil.dstLoc, at', K]; omega⟩, fun j hj => ?_⟩
  have : j = 0 ∨ j = 1 := by simpa [K, Expr.vars] using hj
  rcases this with rfl | rfl
  · exact ⟨_, _, h0, rfl, by show (0 : Nat) < 1; decide, by simp [Stencil.srcLoc, at', K]; omega⟩
  · exact ⟨_, _, h0, rfl, by show (0 : Nat) < 1; decide, by simp [Stencil.srcLoc, at', K]; omega⟩

/-- 9 steps on AVX with vectors of 4 `double`s, in grids with 21 * 6 * 4 cells. -/
example : ∃ W σ e1 e base, e.impl.N = 4 ∧ Yields (dC 21 6 4) 0 W ((fun σ => exchange 0 1 (K.apply B FEnv.demo.f64 0 1 ⟨1, 20, 0, 5, 0, 4⟩ σ))^[9] σ)
    (timeSteps (dC 21 6 4) B base FEnv.demo K (.signed 64) e1 e ⟨1, 20, 0, 5, 0, 4⟩ 0 1 9 W) := by
  obtain ⟨W, hV, h0, h1⟩ := world 21 6 4 ⟨20, 6, 4⟩ ⟨21, 6, 4⟩ (by decide) (by decide)
  obtain ⟨σ, hσ⟩ := Thr.exists_store (hL 21 6 4) hV
  obtain ⟨e1, he1, hn1, e, he, hn⟩ := vecs
  refine ⟨W, σ, e1, e, fun id => 4096 * (1 + 100000 * id), hn, ?_⟩
  refine C62_double_sizes_steps_partial (hL 21 6 4) .avx e1 e he1 hn1 he FEnv.demo B _ (fun id => ⟨_, rfl⟩) K (by rw [hn]; rfl) 0 1 (by decide) ?_
    ⟨20, 6, 4⟩ ⟨21, 6, 4⟩ (by decide) (suited _) (.signed 64) (by rw [hn]; decide) ⟨1, 20, 0, 5, 0, 4⟩ (by decide) (by decide)
    1 (by rw [hn]; decide) (by rw [hn]; decide) W hV h0 h1 (by decide) σ hσ (reach h0 h1) (fun _ _ _ _ => rfl) 9
  intro j _ h
  cases h

/-- With 21 * 5 * 3 cells the array of `temp` starts at byte 315. -/
example : ∃ W e1 e, e.impl.N = 4 ∧ update (dC 21 5 3) B (fun id => 4096 * (1 + 100000 * id)) FEnv.demo K (.signed 64) e1 e ⟨1, 20, 0, 4, 0, 3⟩ W 0 1 =
    .error .oob := by
  obtain ⟨W, hV, h0, h1⟩ := world 21 5 3 ⟨20, 5, 3⟩ ⟨21, 5, 3⟩ (by decide) (by decide)
  obtain ⟨e1, he1, hn1, e, he, hn⟩ := vecs
  refine ⟨W, e1, e, hn, C62_false_sizes (hL 21 5 3) _ _ _ (fun id => ⟨_, rfl⟩) (by decide) K e1 e ⟨20, 5, 3⟩ ⟨21, 5, 3⟩ (by decide) (by decide) (by decide)
    _ _ ?_ (by decide) (by decide) (by decide) W hV 0 1 h0 h1⟩
  rw [hn]
  exact runs_peeled (C37_partial (.signed 64) 4 (by decide) (by decide) 1 20 (by decide) (by decide) 1 (by decide) (by decide))

end Sized

end LFA.GK
