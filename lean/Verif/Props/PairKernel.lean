/-
  C65: vectorised searches for interacting pairs of particles compute what scalar loops compute.
-/
import Verif.PairKernel
import Verif.Props.GridKernel
import Verif.Props.LoopPeelerFn
set_option linter.unusedSectionVars false
namespace LFA.GK
open SV (Expr Entry FEnv Mem Writes Faithful Transfers Reqs lane FOps applyW wr Accessible)
open Thr (Loc Ref InGrid ValueIs InA valA inA_iff peek_step poke_step)

variable {V : Type} [DecidableEq V] {C : Cfg V} {dv : V} {w : Nat}

/-! ### Scalar code -/

/-- The location of variable `v` for the particles `i` and `j` of grid `s`. -/
def Pairs.loc (K : Pairs w) (s v : Nat) (i j : Int) : Loc := ⟨s, if (K.src v).own then i else j, 0, 0, (K.src v).r, (K.src v).k⟩

/-- The value of an expression for the particles `i` and `j`. -/
def Pairs.eval (K : Pairs w) (B : Bits w V) (F : FOps w) (s : Nat) (σ : Loc → V) (i j : Int) (ex : Expr w) : BitVec w :=
  ex.scalar F fun v => (B.bits (σ (K.loc s v i j))).getD 0

/-- What is done for an interaction, to an array of values and to further variables. -/
abbrev SAct (w : Nat) (V Y : Type) := Int → Int → List (BitVec w) → (Loc → V) × Y → (Loc → V) × Y

variable {X Y : Type}

/-- The scalar code for one pair. -/
def Pairs.step (K : Pairs w) (B : Bits w V) (F : FOps w) (s : Nat) (f : SAct w V Y) (i j : Int) (p : (Loc → V) × Y) : (Loc → V) × Y :=
  if F.rel K.rel (K.eval B F s p.1 i j K.test) K.thr then f i j (K.vals.map (K.eval B F s p.1 i j)) p else p

/-- The scalar code for one particle and those in the list. -/
def Pairs.row (K : Pairs w) (B : Bits w V) (F : FOps w) (s : Nat) (f : SAct w V Y) (i : Int) (js : List Int) (p : (Loc → V) × Y) :
    (Loc → V) × Y :=
  js.foldl (fun p j => K.step B F s f i j p) p

/-- The scalar code for all pairs: `for (i = 0; i < n; ++i) for (j = i + 1; j < stop(i); ++j)`. -/
def Pairs.all (K : Pairs w) (B : Bits w V) (F : FOps w) (s : Nat) (f : SAct w V Y) (n : Nat) (stop : Int → Int) (p : (Loc → V) × Y) :
    (Loc → V) × Y :=
  (Peel.iota 0 n).foldl (fun p i => K.row B F s f i (Peel.iota (i + 1) (stop i - (i + 1)).toNat) p) p

/-- All variables. -/
def Pairs.vars (K : Pairs w) : List Nat := K.test.vars ++ K.vals.flatMap Expr.vars

/-! ### Single members -/

/-- The memory holds the values `σ`, and the program may continue. -/
def Good (C : Cfg V) (dv : V) (W : World V) (h : Heap V) (σ : Loc → V) : Prop :=
  Valid C dv ⟨h, W.g⟩ ∧ ∀ l, InGrid C W l → ValueIs C ⟨h, W.g⟩ l (σ l)

theorem inGrid_same {W W' : World V} (h : W'.g = W.g) (l : Loc) : InGrid C W' l ↔ InGrid C W l := by
  unfold InGrid
  simp only [dimsAre_same h]

theorem Good.refines (hL : C.L.WF) {W : World V} {h : Heap V} {σ : Loc → V} (hG : Good C dv W h σ) :
    ∃ a, R C ⟨h, W.g⟩ a ∧ (∀ l, InA C a l ↔ InGrid C W l) ∧ ∀ l, InA C a l → valA dv a l = σ l := by
  obtain ⟨a, hR⟩ := hG.1.refines hL
  have hi : ∀ l, InA C a l ↔ InGrid C W l := fun l => (inA_iff hR l).trans (inGrid_same (W := W) (W' := ⟨h, W.g⟩) rfl l)
  exact ⟨a, hR, hi, fun l hl => valueIs_unique (valA_valueIs hL hR hl) (hG.2 l ((hi l).1 hl))⟩

/-- Member `r[k]` of the particle at `x`. -/
def mem (s : Nat) (x : Int) (r k : Nat) : Loc := ⟨s, x, 0, 0, r, k⟩

theorem mem_at (s : Nat) (x : Int) (r k : Nat) : at' s ⟨0, 0, 0, r, k⟩ x 0 0 = mem s x r k := by simp [at', mem]

/-- The member of particle `x` may be accessed as a number. -/
def Reach (C : Cfg V) (w : Nat) (base : Nat → Nat) (A : One) (W : World V) (s : Nat) (x : Int) (r k : Nat) : Prop :=
  InGrid C W (mem s x r k) ∧ Pointer C w (base A.id) A.e 1 ⟨0, 0, 0, r, k⟩ x 0 0

theorem fetch_ok (hL : C.L.WF) (B : Bits w V) (base : Nat → Nat) (E : FEnv) (hw : 0 < w / 8) {A : One} {W : World V} {s : Nat}
    (hs : Has C W s A.e A.id) {h : Heap V} {σ : Loc → V} (hG : Good C dv W h σ) {x : Int} {r k : Nat} (hr : Reach C w base A W s x r k) :
    fetch ⟨C.L, B, base, E⟩ A h x r k = B.bits (σ (mem s x r k)) := by
  obtain ⟨a, hR, hi, hv⟩ := hG.refines hL
  obtain ⟨h1, m, m1, m2, ⟨q, hq⟩, -⟩ := hr
  have hin : InA C a (at' s ⟨0, 0, 0, r, k⟩ x 0 0) := by rw [mem_at]; exact (hi _).2 h1
  obtain ⟨b, hb, hrd⟩ := read_ok (dv := dv) hL hR (W := ⟨h, W.g⟩) hs hin m1
  have hb' : h.blk A.id = some b := hb
  have hq' : q * (w / 8 : Nat) - base A.id = off C.L A.e x 0 0 ⟨0, 0, 0, r, k⟩ m := by
    rw [Int.mul_comm, ← hq]; unfold addr off; ring
  unfold fetch
  simp only [m1, hb']
  rw [elem, if_pos ⟨m2, ⟨q, hq⟩⟩, hq, Int.mul_ediv_cancel_left _ (by omega), Option.bind_some, view, hq', hrd]
  simp only
  rw [hv _ hin, mem_at]

theorem store_ok (hL : C.L.WF) (B : Bits w V) (base : Nat → Nat) (E : FEnv) (hw : 0 < w / 8) {A : One} {W : World V} {s : Nat}
    (hs : Has C W s A.e A.id) {h : Heap V} {σ : Loc → V} (hG : Good C dv W h σ) {x : Int} {r k : Nat} (hr : Reach C w base A W s x r k)
    (v : BitVec w) :
    ∃ h', store ⟨C.L, B, base, E⟩ A x r k v h = some h' ∧ Good C dv W h' fun l => if l = mem s x r k then B.val v else σ l := by
  obtain ⟨a, hR, hi, hv⟩ := hG.refines hL
  obtain ⟨h1, m, m1, m2, ⟨q, hq⟩, -⟩ := hr
  have hin : InA C a (at' s ⟨0, 0, 0, r, k⟩ x 0 0) := by rw [mem_at]; exact (hi _).2 h1
  obtain ⟨b, b', a', hb, k1, k2, k3, k4, k5⟩ := write_ok (dv := dv) hL hR (W := ⟨h, W.g⟩) hs hin m1 (B.val v)
  have hb' : h.blk A.id = some b := hb
  have hq' : q * (w / 8 : Nat) - base A.id = off C.L A.e x 0 0 ⟨0, 0, 0, r, k⟩ m := by
    rw [Int.mul_comm, ← hq]; unfold addr off; ring
  refine ⟨h.set A.id b', ?_, ?_, ?_⟩
  · unfold store
    simp only [m1, hb']
    rw [elem, if_pos ⟨m2, ⟨q, hq⟩⟩, hq, Int.mul_ediv_cancel_left _ (by omega), Option.bind_some, put, hq', k1]
    rfl
  · refine hG.1.next hL hR (fun s => by simp) ?_ k2
    obtain ⟨g, m', j1, j2⟩ := hin
    exact ⟨g, m', j1, j2⟩
  · intro l hl
    have hl' := (hi l).2 hl
    have := valA_valueIs (dv := dv) hL k3 ((k4 l).2 hl')
    rw [k5 l hl', hv l hl', mem_at] at this
    exact this

/-! ### Comparisons -/

/-- `any()` of a comparison tells if there is a lane for which it holds, `get()` yields the lanes. -/
def Tests (e : Entry w) (E : FEnv) (F : FOps w) : Prop :=
  ∃ D, e.cmp = some D ∧
    (∀ r a b, ∃ m, D.rel E r a b = some m ∧ (D.any E m = true ↔ ∃ i < e.impl.N, F.rel r (lane e.impl a i) (lane e.impl b i) = true)) ∧
    ∀ v, ∀ i < e.impl.N, D.index E v (BitVec.ofNat 32 i) = some (lane e.impl v i)

theorem tests {e : Entry w} {E : FEnv} {F : FEnv → FOps w} {D : SV.Cmp e.impl} (hD : e.cmp = some D)
    (hlen : SV.LenLaw e.impl.N e.impl.lanes) (L : SV.CmpLaws D F) : Tests e E (F E) := by
  refine ⟨D, hD, fun r a b => ?_, fun v i hi => L.index E v i hi⟩
  obtain ⟨m, hm, hr⟩ := SV.rel_ok L E r a b
  have hla : (e.impl.lanes a).length = e.impl.N := hlen a
  have hlb : (e.impl.lanes b).length = e.impl.N := hlen b
  refine ⟨m, hm, ?_⟩
  rw [L.any E m _ (by rw [List.length_zipWith, hla, hlb, Nat.min_self]) hr, List.any_eq_true]
  constructor
  · rintro ⟨x, hx, ht⟩
    obtain ⟨i, hi, hxi⟩ := List.getElem_of_mem hx
    simp only [List.length_zipWith, hla, hlb, Nat.min_self] at hi
    refine ⟨i, hi, ?_⟩
    rw [List.getElem_zipWith] at hxi
    simp only [lane, List.getD, List.getElem?_eq_getElem (show i < (e.impl.lanes a).length by omega),
      List.getElem?_eq_getElem (show i < (e.impl.lanes b).length by omega), Option.getD_some]
    rw [hxi]; exact ht
  · rintro ⟨i, hi, ht⟩
    have hl : i < (List.zipWith ((F E).rel r) (e.impl.lanes a) (e.impl.lanes b)).length := by
      rw [List.length_zipWith, hla, hlb, Nat.min_self]; exact hi
    refine ⟨_, List.getElem_mem hl, ?_⟩
    rw [List.getElem_zipWith]
    simp only [lane, List.getD, List.getElem?_eq_getElem (show i < (e.impl.lanes a).length by omega),
      List.getElem?_eq_getElem (show i < (e.impl.lanes b).length by omega), Option.getD_some] at ht
    exact ht

/-! ### The loop over pairs -/

/-- What is done for an interaction does to memory and variables what the scalar code `f` does to values: `I` relates both. Particles in
    `rng` may be accessed. -/
structure Implements (C : Cfg V) (dv : V) (B : Bits w V) (W : World V) (s : Nat) (K : Pairs w) (rng : Int → Prop)
    (I : Heap V × X → (Loc → V) × Y → Prop) (act : Act w V X) (f : SAct w V Y) : Prop where
  good : ∀ st p, I st p → ∃ σ, Good C dv W st.1 σ ∧
    ∀ v ∈ K.vars, ∀ x, rng x → σ (mem s x (K.src v).r (K.src v).k) = p.1 (mem s x (K.src v).r (K.src v).k)
  num : ∀ st p, I st p → ∀ v ∈ K.vars, ∀ x, rng x → (B.bits (p.1 (mem s x (K.src v).r (K.src v).k))).isSome = true
  keep : ∀ i j ys p, rng i → rng j → ∀ v ∈ K.vars, ∀ x, rng x →
    (f i j ys p).1 (mem s x (K.src v).r (K.src v).k) = p.1 (mem s x (K.src v).r (K.src v).k)
  step : ∀ st p i j ys, ys.length = K.vals.length → I st p → rng i → rng j → ∃ st', act i j ys st = some st' ∧ I st' (f i j ys p)

theorem mapM_some {α β : Type} (f : α → Option β) (g : α → β) : ∀ l : List α, (∀ x ∈ l, f x = some (g x)) → l.mapM f = some (l.map g) := by
  intro l
  induction l with
  | nil => intro _; rfl
  | cons x l ih =>
    intro h
    simp [List.mapM_cons, h x (by simp), ih fun y hy => h y (by simp [hy])]

theorem mapM_ex {α β : Type} (f : α → Option β) (Q : α → β → Prop) : ∀ l : List α, (∀ x ∈ l, ∃ y, f x = some y ∧ Q x y) →
    ∃ ys, l.mapM f = some ys ∧ List.Forall₂ Q l ys := by
  intro l
  induction l with
  | nil => intro _; exact ⟨[], rfl, .nil⟩
  | cons x l ih =>
    intro h
    obtain ⟨y, h1, h2⟩ := h x (by simp)
    obtain ⟨ys, h3, h4⟩ := ih fun z hz => h z (by simp [hz])
    exact ⟨y :: ys, by simp [List.mapM_cons, h1, h3], .cons h2 h4⟩

theorem iota_succ (x : Int) (n : Nat) : Peel.iota x (n + 1) = x :: Peel.iota (x + 1) n := by
  unfold Peel.iota
  rw [List.range_succ_eq_map, List.map_cons, List.map_map]
  simp only [Int.natCast_zero, Int.add_zero, List.cons.injEq, true_and]
  refine List.map_congr_left fun i _ => ?_
  simp only [Function.comp, Nat.succ_eq_add_one]
  omega

/-- The values of the variables are those of `σ`. -/
def Same (K : Pairs w) (s : Nat) (rng : Int → Prop) (σ σ' : Loc → V) : Prop :=
  ∀ v ∈ K.vars, ∀ x, rng x → σ (mem s x (K.src v).r (K.src v).k) = σ' (mem s x (K.src v).r (K.src v).k)

theorem Same.eval {K : Pairs w} {s : Nat} {rng : Int → Prop} {σ σ' : Loc → V} (h : Same K s rng σ σ') (B : Bits w V) (F : FOps w)
    {i j : Int} (hi : rng i) (hj : rng j) {ex : Expr w} (hex : ∀ v ∈ ex.vars, v ∈ K.vars) :
    K.eval B F s σ i j ex = K.eval B F s σ' i j ex := by
  unfold Pairs.eval
  refine SV.Expr.scalar_congr F ex fun v hv => ?_
  have := h v (hex v hv) (if (K.src v).own then i else j) (by split <;> assumption)
  unfold mem at this
  unfold Pairs.loc
  rw [this]

theorem vars_test (K : Pairs w) : ∀ v ∈ K.test.vars, v ∈ K.vars := fun _ h => List.mem_append_left _ h

theorem vars_vals (K : Pairs w) {ex : Expr w} (h : ex ∈ K.vals) : ∀ v ∈ ex.vars, v ∈ K.vars := fun _ hv =>
  List.mem_append_right _ (List.mem_flatMap.2 ⟨ex, h, hv⟩)

theorem Implements.same {B : Bits w V} {W : World V} {s : Nat} {K : Pairs w} {rng : Int → Prop} {I : Heap V × X → (Loc → V) × Y → Prop}
    {act : Act w V X} {f : SAct w V Y} (hI : Implements C dv B W s K rng I act f) (F : FOps w) {i : Int} (hi : rng i) :
    ∀ (js : List Int) (p : (Loc → V) × Y), (∀ j ∈ js, rng j) → Same K s rng (K.row B F s f i js p).1 p.1 := by
  intro js
  induction js with
  | nil => intro p _ v _ x _; rfl
  | cons j js ih =>
    intro p hj v hv x hx
    have := ih (K.step B F s f i j p) (fun j' h' => hj j' (by simp [h'])) v hv x hx
    unfold Pairs.row at this ⊢
    rw [List.foldl_cons, this]
    unfold Pairs.step
    split
    · exact hI.keep i j _ p hi (hj j (by simp)) v hv x hx
    · rfl

/-- The loop over the lanes. -/
theorem lanes_ok (T : Env w V) (F : FOps w) {K : Pairs w} {e : Entry w} {D : SV.Cmp e.impl}
    (hD : ∀ v, ∀ i < e.impl.N, D.index T.E v (BitVec.ofNat 32 i) = some (lane e.impl v i))
    {W : World V} {s : Nat} {rng : Int → Prop} {I : Heap V × X → (Loc → V) × Y → Prop} {act : Act w V X} {f : SAct w V Y}
    (hI : Implements C dv T.B W s K rng I act f) {i j : Int} (hi : rng i) (hj : ∀ l < e.impl.N, rng (j + (l : Nat))) (σ : Loc → V) (t : e.impl.V)
    (vs : List e.impl.V) (ht : ∀ l < e.impl.N, lane e.impl t l = K.eval T.B F s σ i (j + (l : Nat)) K.test)
    (hvs : ∀ l < e.impl.N, vs.map (fun v => lane e.impl v l) = K.vals.map (K.eval T.B F s σ i (j + (l : Nat)))) :
    ∀ (n l : Nat), l + n = e.impl.N → ∀ st p, I st p → Same K s rng p.1 σ →
      ∃ st', K.lanes T F act D i j t vs n l st = some st' ∧ I st' (K.row T.B F s f i (Peel.iota (j + (l : Nat)) n) p) := by
  intro n
  induction n with
  | zero => intro l _ st p h _; exact ⟨st, rfl, h⟩
  | succ n ih =>
    intro l hl st p h hσ
    have hl' : l < e.impl.N := by omega
    have hrow : K.row T.B F s f i (Peel.iota (j + (l : Nat)) (n + 1)) p =
        K.row T.B F s f i (Peel.iota (j + ((l + 1 : Nat) : Int)) n) (K.step T.B F s f i (j + (l : Nat)) p) := by
      simp only [Pairs.row, iota_succ, List.foldl_cons]
      rw [show j + (l : Nat) + 1 = j + ((l + 1 : Nat) : Int) by omega]
    have hte : K.eval T.B F s p.1 i (j + (l : Nat)) K.test = lane e.impl t l := by
      rw [ht l hl']; exact hσ.eval T.B F hi (hj l hl') (vars_test K)
    have hve : K.vals.map (K.eval T.B F s p.1 i (j + (l : Nat))) = vs.map (fun v => lane e.impl v l) := by
      rw [hvs l hl']
      exact List.map_congr_left fun ex hex => hσ.eval T.B F hi (hj l hl') (vars_vals K hex)
    have hlen : (vs.map (fun v => lane e.impl v l)).length = K.vals.length := by rw [← hve, List.length_map]
    simp only [Pairs.lanes, hD t l hl', Option.bind_some]
    rw [mapM_some _ (fun v => lane e.impl v l) vs fun v _ => hD v l hl', Option.bind_some, hrow]
    have hstep : K.step T.B F s f i (j + (l : Nat)) p = if F.rel K.rel (lane e.impl t l) K.thr = true then
        f i (j + (l : Nat)) (vs.map fun v => lane e.impl v l) p else p := by
      unfold Pairs.step
      rw [hte, hve]
    by_cases hc : F.rel K.rel (lane e.impl t l) K.thr = true
    · rw [if_pos hc] at hstep ⊢
      obtain ⟨st1, h1, h2⟩ := hI.step st p i (j + (l : Nat)) _ hlen h hi (hj l hl')
      rw [h1, Option.bind_some]
      rw [hstep]
      refine ih (l + 1) (by omega) st1 _ h2 fun v hv x hx => ?_
      rw [hI.keep i _ _ p hi (hj l hl') v hv x hx]
      exact hσ v hv x hx
    · rw [if_neg hc] at hstep ⊢
      rw [Option.bind_some, hstep]
      exact ih (l + 1) (by omega) st p h hσ

/-- If no lane interacts, then the scalar code does nothing. -/
theorem row_none {B : Bits w V} (F : FOps w) {K : Pairs w} {s : Nat} (f : SAct w V Y) (i j : Int) (p : (Loc → V) × Y) (n : Nat)
    (h : ∀ l < n, F.rel K.rel (K.eval B F s p.1 i (j + (l : Nat)) K.test) K.thr = false) : K.row B F s f i (Peel.iota j n) p = p := by
  induction n generalizing j with
  | zero => rfl
  | succ n ih =>
    simp only [Pairs.row, iota_succ, List.foldl_cons]
    have h0 := h 0 (by omega)
    simp only [Int.natCast_zero, Int.add_zero] at h0
    rw [show K.step B F s f i j p = p by unfold Pairs.step; rw [h0]; rfl]
    refine ih (j + 1) fun l hl => ?_
    have := h (l + 1) (by omega)
    rwa [show j + ((l + 1 : Nat) : Int) = j + 1 + (l : Nat) by omega] at this

theorem pair_body_ok (hL : C.L.WF) (B : Bits w V) (base : Nat → Nat) (E : FEnv) (F : FOps w) {K : Pairs w} {A : One} {e : Entry w} {Q : Reqs}
    {d f c : Bool} (H : Faithful e.impl e.cmp E F d f c) (T : Transfers e.impl Q E) (hQ : Q.any = 1) (hT : Tests e E F)
    (hk : K.test.only d f c = true) (hks : ∀ ex ∈ K.vals, ex.only d f c = true) (hw : 0 < w / 8) (hN : 0 < e.impl.N)
    {W : World V} {s : Nat} (hs : Has C W s A.e A.id) {rng : Int → Prop}
    (hr : ∀ v ∈ K.vars, ∀ x, rng x → Reach C w base A W s x (K.src v).r (K.src v).k)
    {I : Heap V × X → (Loc → V) × Y → Prop} {act : Act w V X} {g : SAct w V Y} (hI : Implements C dv B W s K rng I act g)
    {i j : Int} (hi : rng i) (hj : ∀ l < e.impl.N, rng (j + (l : Nat))) (regs : Nat → Option (BitVec w)) (st : Heap V × X) (p : (Loc → V) × Y)
    (h : I st p) (hregs : ∀ v ∈ K.vars, (K.src v).own = true → regs v = B.bits (p.1 (mem s i (K.src v).r (K.src v).k))) :
    ∃ st', K.body ⟨C.L, B, base, E⟩ F A act e regs i j st = some st' ∧ I st' (K.row B F s g i (Peel.iota j e.impl.N) p) := by
  obtain ⟨σ, hG, hσ⟩ := hI.good st p h
  obtain ⟨a, hR, hia, hva⟩ := hG.refines hL
  -- all variables
  have henv : ∀ v ∈ K.vars, ∃ y, K.env ⟨C.L, B, base, E⟩ A e regs st.1 j v = some y ∧
      ∀ l < e.impl.N, lane e.impl y l = (B.bits (p.1 (K.loc s v i (j + (l : Nat))))).getD 0 := by
    intro v hv
    unfold Pairs.env Pairs.loc
    by_cases ho : (K.src v).own = true
    · simp only [ho, if_true]
      obtain ⟨x, hx⟩ := Option.isSome_iff_exists.1 (hI.num st p h v hv i hi)
      rw [hregs v hv ho, hx]
      refine ⟨_, rfl, fun l hl => ?_⟩
      rw [H.bcast x l hl]
      unfold mem at hx
      rw [hx]; rfl
    · simp only [ho, Bool.false_eq_true, if_false]
      have hp := (hr v hv j (by simpa using hj 0 hN)).2
      have hload := load_ok (dv := dv) hL B base E (K := K.loads) (A := A.pair) T hw hN (s := s) (o := s) (W := ⟨st.1, W.g⟩) hR hs hs j 0 0 v
        (by
          simp only [Pairs.loads, One.pair, Mode.loadReq, hQ, Bool.false_eq_true, if_false]
          exact hp)
        (fun l hl => by
          have := (hr v hv (j + (l : Nat)) (hj l hl)).1
          have e1 : K.loads.srcLoc s s v (j + (l : Nat)) 0 0 = mem s (j + (l : Nat)) (K.src v).r (K.src v).k := by
            simp [Stencil.srcLoc, Stencil.slot, Pairs.loads, at', mem]
          rw [e1]; exact (hia _).2 this)
        (fun l => (B.bits (p.1 (mem s (j + (l : Nat)) (K.src v).r (K.src v).k))).getD 0)
        (fun l hl => by
          have e1 : K.loads.srcLoc s s v (j + (l : Nat)) 0 0 = mem s (j + (l : Nat)) (K.src v).r (K.src v).k := by
            simp [Stencil.srcLoc, Stencil.slot, Pairs.loads, at', mem]
          have := (hr v hv (j + (l : Nat)) (hj l hl)).1
          rw [e1, hva _ ((hia _).2 this), hσ v hv _ (hj l hl)]
          obtain ⟨x, hx⟩ := Option.isSome_iff_exists.1 (hI.num st p h v hv _ (hj l hl))
          rw [hx]; rfl)
      exact hload
  obtain ⟨t, t1, t2⟩ := H.vec _ _ K.test hk fun v hv => henv v (vars_test K v hv)
  obtain ⟨vs, v1, v2⟩ := mapM_ex (fun ex : Expr w => ex.vec e.impl e.cmp E (K.env ⟨C.L, B, base, E⟩ A e regs st.1 j))
    (fun ex y => ∀ l < e.impl.N, lane e.impl y l = K.eval B F s p.1 i (j + (l : Nat)) ex) K.vals fun ex hex =>
      H.vec _ _ ex (hks ex hex) fun v hv => henv v (vars_vals K hex v hv)
  obtain ⟨D, hD, hrel, hidx⟩ := hT
  obtain ⟨m, m1, m2⟩ := hrel K.rel t (e.impl.bcast E K.thr)
  have hlanes : ∀ l < e.impl.N, vs.map (fun v => lane e.impl v l) = K.vals.map (K.eval B F s p.1 i (j + (l : Nat))) := by
    intro l hl
    have : ∀ (xs : List (Expr w)) (ys : List e.impl.V), List.Forall₂ (fun ex y => ∀ l < e.impl.N, lane e.impl y l =
        K.eval B F s p.1 i (j + (l : Nat)) ex) xs ys → ys.map (fun v => lane e.impl v l) = xs.map (K.eval B F s p.1 i (j + (l : Nat))) := by
      intro xs ys h
      induction h with
      | nil => rfl
      | cons hxy _ ih => rw [List.map_cons, List.map_cons, hxy l hl, ih]
    exact this _ _ v2
  unfold Pairs.body
  simp only [t1, Option.bind_some, v1]
  rw [hD]
  simp only [Option.bind_some, m1]
  by_cases hm : D.any E m = true
  · rw [if_pos hm]
    have := lanes_ok (C := C) (dv := dv) ⟨C.L, B, base, E⟩ F (K := K) hidx hI hi hj p.1 t vs t2 hlanes e.impl.N 0 (by omega) st p h
      (fun _ _ _ _ => rfl)
    simpa using this
  · rw [if_neg hm]
    refine ⟨st, rfl, ?_⟩
    rw [row_none F g i j p e.impl.N]
    · exact h
    · intro l hl
      cases hc : F.rel K.rel (K.eval B F s p.1 i (j + (l : Nat)) K.test) K.thr with
      | false => rfl
      | true =>
        refine absurd (m2.2 ⟨l, hl, ?_⟩) hm
        rw [H.bcast K.thr l hl, t2 l hl]
        exact hc

theorem pair_calls_ok (hL : C.L.WF) (B : Bits w V) (base : Nat → Nat) (E : FEnv) (F : FOps w) {K : Pairs w} {A : One} {e1 e : Entry w}
    {Q1 Q : Reqs} {d f c : Bool} (H1 : Faithful e1.impl e1.cmp E F d f c) (H : Faithful e.impl e.cmp E F d f c)
    (T1 : Transfers e1.impl Q1 E) (T : Transfers e.impl Q E) (hQ1 : Q1.any = 1) (hQ : Q.any = 1) (hT1 : Tests e1 E F) (hT : Tests e E F)
    (h1 : e1.impl.N = 1) (hk : K.test.only d f c = true) (hks : ∀ ex ∈ K.vals, ex.only d f c = true) (hw : 0 < w / 8) (hN : 0 < e.impl.N)
    {W : World V} {s : Nat} (hs : Has C W s A.e A.id) {rng : Int → Prop}
    (hr : ∀ v ∈ K.vars, ∀ x, rng x → Reach C w base A W s x (K.src v).r (K.src v).k)
    {I : Heap V × X → (Loc → V) × Y → Prop} {act : Act w V X} {g : SAct w V Y} (hI : Implements C dv B W s K rng I act g)
    {i : Int} (hi : rng i) (regs : Nat → Option (BitVec w)) :
    ∀ (cs : List (Nat × Int)), (∀ q ∈ cs, (q.1 = 1 ∨ q.1 = e.impl.N) ∧ ∀ l < q.1, rng (q.2 + (l : Nat))) →
      ∀ (st : Heap V × X) (p : (Loc → V) × Y), I st p →
        (∀ v ∈ K.vars, (K.src v).own = true → regs v = B.bits (p.1 (mem s i (K.src v).r (K.src v).k))) →
        ∃ st', K.calls ⟨C.L, B, base, E⟩ F A act e1 e regs i cs st = some st' ∧ I st' (K.row B F s g i (Peel.visits cs) p) := by
  intro cs
  induction cs with
  | nil => intro _ st p h _; exact ⟨st, rfl, h⟩
  | cons q cs ih =>
    intro hcs st p h hregs
    obtain ⟨hq, hq'⟩ := hcs q (by simp)
    have hb : ∃ st', K.body ⟨C.L, B, base, E⟩ F A act (if q.1 = e.impl.N then e else e1) regs i q.2 st = some st' ∧
        I st' (K.row B F s g i (Peel.iota q.2 q.1) p) := by
      by_cases hqN : q.1 = e.impl.N
      · rw [if_pos hqN, hqN]
        rw [hqN] at hq'
        exact pair_body_ok hL B base E F H T hQ hT hk hks hw hN hs hr hI hi hq' regs st p h hregs
      · have hq1 : q.1 = e1.impl.N := by rw [h1]; exact hq.resolve_right hqN
        rw [if_neg hqN, hq1]
        rw [hq1] at hq'
        exact pair_body_ok hL B base E F H1 T1 hQ1 hT1 hk hks hw (by omega) hs hr hI hi hq' regs st p h hregs
    obtain ⟨st1, b1, b2⟩ := hb
    have hsame := hI.same F hi (Peel.iota q.2 q.1) p fun j hj => by
      obtain ⟨k1, k2⟩ := mem_iota.1 hj
      have := hq' (j - q.2).toNat (by omega)
      rwa [show q.2 + ((j - q.2).toNat : Nat) = j by omega] at this
    obtain ⟨st', c1, c2⟩ := ih (fun q' h' => hcs q' (by simp [h'])) st1 _ b2 fun v hv ho => by rw [hregs v hv ho, hsame v hv i hi]
    refine ⟨st', by simp only [Pairs.calls, b1, Option.bind_some, c1], ?_⟩
    have : K.row B F s g i (Peel.visits (q :: cs)) p = K.row B F s g i (Peel.visits cs) (K.row B F s g i (Peel.iota q.2 q.1) p) := by
      simp only [Pairs.row, Peel.visits, List.flatMap_cons, List.foldl_append]
    rw [this]
    exact c2

/-- For each of `n` particles, the loop processes the particles behind it up to `stop - 1`. -/
def Scans (t : Counters) (N n : Nat) (stop : Int → Int) : Prop :=
  ∀ i : Int, 0 ≤ i → i < n → ∃ pc x, Peel.peelFn t.t1 t.t2 t.t3 N (i + 1) n = some (pc, x) ∧
    Peel.visits pc = Peel.iota (i + 1) (stop i - (i + 1)).toNat ∧ ∀ c ∈ pc, c.1 = 1 ∨ c.1 = N

theorem mem_visits {cs : List (Nat × Int)} {q : Nat × Int} (hq : q ∈ cs) {l : Nat} (hl : l < q.1) : q.2 + (l : Nat) ∈ Peel.visits cs :=
  List.mem_flatMap.2 ⟨q, hq, mem_iota.2 ⟨by omega, by omega⟩⟩

theorem search_ok (hL : C.L.WF) (B : Bits w V) (base : Nat → Nat) (E : FEnv) (F : FOps w) {K : Pairs w} {A : One} {e1 e : Entry w}
    {Q1 Q : Reqs} {d f c : Bool} (H1 : Faithful e1.impl e1.cmp E F d f c) (H : Faithful e.impl e.cmp E F d f c)
    (T1 : Transfers e1.impl Q1 E) (T : Transfers e.impl Q E) (hQ1 : Q1.any = 1) (hQ : Q.any = 1) (hT1 : Tests e1 E F) (hT : Tests e E F)
    (h1 : e1.impl.N = 1) (hk : K.test.only d f c = true) (hks : ∀ ex ∈ K.vals, ex.only d f c = true) (hw : 0 < w / 8) (hN : 0 < e.impl.N)
    {W : World V} {s : Nat} (hs : Has C W s A.e A.id) {rng : Int → Prop}
    (hr : ∀ v ∈ K.vars, ∀ x, rng x → Reach C w base A W s x (K.src v).r (K.src v).k)
    {I : Heap V × X → (Loc → V) × Y → Prop} {act : Act w V X} {g : SAct w V Y} (hI : Implements C dv B W s K rng I act g)
    (t : Counters) (n : Nat) (stop : Int → Int) (ht : Scans t e.impl.N n stop)
    (hrng : ∀ i : Int, 0 ≤ i → i < n → rng i ∧ ∀ j, i < j → j < stop i → rng j) (st : Heap V × X) (p : (Loc → V) × Y) (h : I st p) :
    ∃ st', K.search ⟨C.L, B, base, E⟩ F A act t e1 e n st = some st' ∧ I st' (K.all B F s g n stop p) := by
  have key : ∀ (is : List Int), (∀ i ∈ is, 0 ≤ i ∧ i < n) → ∀ (st : Heap V × X) (p : (Loc → V) × Y), I st p →
      ∃ st', K.outer ⟨C.L, B, base, E⟩ F A act t e1 e n is st = some st' ∧
        I st' (is.foldl (fun p i => K.row B F s g i (Peel.iota (i + 1) (stop i - (i + 1)).toNat) p) p) := by
    intro is
    induction is with
    | nil => intro _ st p h; exact ⟨st, rfl, h⟩
    | cons i is ih =>
      intro his st p h
      obtain ⟨i0, i1⟩ := his i (by simp)
      obtain ⟨pc, x, p1, p2, p3⟩ := ht i i0 i1
      obtain ⟨r1, r2⟩ := hrng i i0 i1
      obtain ⟨st1, c1, c2⟩ := pair_calls_ok hL B base E F H1 H T1 T hQ1 hQ hT1 hT h1 hk hks hw hN hs hr hI r1
        (fun v => fetch ⟨C.L, B, base, E⟩ A st.1 i (K.src v).r (K.src v).k) pc
        (fun q hq => ⟨p3 q hq, fun l hl => by
          have := mem_visits hq hl
          rw [p2] at this
          obtain ⟨k1, k2⟩ := mem_iota.1 this
          exact r2 _ (by omega) (by omega)⟩) st p h
        (fun v hv _ => by
          obtain ⟨σ, hG, hσ⟩ := hI.good st p h
          rw [fetch_ok hL B base E hw hs hG (hr v hv i r1), hσ v hv i r1])
      rw [p2] at c2
      obtain ⟨st', d1, d2⟩ := ih (fun i' h' => his i' (by simp [h'])) st1 _ c2
      refine ⟨st', ?_, d2⟩
      simp only [Pairs.outer, p1, Option.bind_some, c1, d1]
  exact key _ (fun i hi => by have := mem_iota.1 hi; omega) st p h

/-! ### Which pairs are processed -/

/-- The end of the particles which are processed for particle `i`. -/
def pairStop (N n : Nat) (i : Int) : Int := if i < N * (n / N : Nat) then n else N * (n / N + 1 : Nat)

/-- Types of the counters can represent `n` and the arity. -/
structure Counters.Ok (t : Counters) (N n : Nat) : Prop where
  (b1 : 0 < t.t1.bits) (b2 : 0 < t.t2.bits) (b3 : 0 < t.t3.bits)
  (d1 : (N : Int) ∣ t.t1.hi) (d2 : (N : Int) ∣ t.t2.hi) (d3 : (N : Int) ∣ t.t3.hi)
  (l1 : (n : Int) + 2 * N < t.t1.hi) (l2 : (n : Int) + 2 * N < t.t2.hi) (l3 : (n : Int) + 2 * N < t.t3.hi)

theorem scans {t : Counters} {N n : Nat} (hN : 0 < N) (h : t.Ok N n) : Scans t N n (pairStop N n) := by
  intro i i0 i1
  obtain ⟨b1, b2, b3, d1, d2, d3, l1, l2, l3⟩ := h
  have hdm := Nat.div_add_mod n N
  have hmod := Nat.mod_lt n hN
  have e1 : N * (n / N + 1) = N * (n / N) + N := Nat.mul_succ _ _
  have e2 : (N : Int) * (n / N + 1 : Nat) = ((N * (n / N + 1) : Nat) : Int) := by push_cast; rfl
  have e3 : (N : Int) * (n / N : Nat) = ((N * (n / N) : Nat) : Int) := by push_cast; rfl
  unfold pairStop
  by_cases hi : i < N * (n / N : Nat)
  · rw [if_pos hi]
    obtain ⟨pc, q1, q2, q3, -⟩ := C37_function_partial t.t1 t.t2 t.t3 b1 b2 b3 N hN (by omega) d1 d2 d3 (i + 1) n (by omega) (by omega)
      (by omega) (by omega) (n / N : Nat) (by omega) (by omega)
    exact ⟨pc, _, q1, q2, fun c hc => (q3 c hc).1⟩
  · rw [if_neg hi]
    obtain ⟨pc, q1, q2, q3⟩ := C37_function_false_exact t.t1 t.t2 t.t3 b1 b2 b3 N (i + 1) n (by omega) (by omega) (n / N : Nat) (by omega)
      (by rw [show ((n / N : Nat) : Int) + 1 = (n / N + 1 : Nat) by push_cast; rfl]; omega) l1 l2 l3
    refine ⟨pc, _, q1, ?_, fun c hc => (q3 c hc).1⟩
    rw [q2]
    push_cast
    rfl

theorem pairStop_dvd {N n : Nat} (h : N ∣ n) {i : Int} (hi : i < n) : pairStop N n i = n := by
  unfold pairStop
  rw [if_pos]
  rw [← Int.natCast_mul, Nat.mul_div_cancel' h]
  exact hi

theorem all_congr {K : Pairs w} {B : Bits w V} {F : FOps w} {s : Nat} {f : SAct w V Y} {n : Nat} {stop stop' : Int → Int} (p : (Loc → V) × Y)
    (h : ∀ i : Int, 0 ≤ i → i < n → stop i = stop' i) : K.all B F s f n stop p = K.all B F s f n stop' p := by
  unfold Pairs.all
  have : ∀ (is : List Int), (∀ i ∈ is, 0 ≤ i ∧ i < n) → ∀ p : (Loc → V) × Y,
      is.foldl (fun p i => K.row B F s f i (Peel.iota (i + 1) (stop i - (i + 1)).toNat) p) p =
      is.foldl (fun p i => K.row B F s f i (Peel.iota (i + 1) (stop' i - (i + 1)).toNat) p) p := by
    intro is
    induction is with
    | nil => intro _ _; rfl
    | cons i is ih =>
      intro hi p
      rw [List.foldl_cons, List.foldl_cons, h i (hi i (by simp)).1 (hi i (by simp)).2]
      exact ih (fun j hj => hi j (by simp [hj])) _
  exact this _ (fun i hi => by have := mem_iota.1 hi; omega) p

/-! ### Updates of members -/

/-- The value which a statement assigns. -/
def Upd.value (B : Bits w V) (F : FOps w) (s : Nat) (i j : Int) (ys : List (BitVec w)) (u : Upd w) (σ : Loc → V) : BitVec w :=
  u.code.scalar F fun v =>
    match u.arg v with
    | .val k => ys.getD k 0
    | .mem m => (B.bits (σ (mem s (if m.own then i else j) m.r m.k))).getD 0

/-- A statement of the scalar code. -/
def Upd.apply (B : Bits w V) (F : FOps w) (s : Nat) (i j : Int) (ys : List (BitVec w)) (u : Upd w) (σ : Loc → V) : Loc → V := fun l =>
  if l = mem s (if u.dst.own then i else j) u.dst.r u.dst.k then B.val (u.value B F s i j ys σ) else σ l

/-- The statements in order. -/
def applyAll (B : Bits w V) (F : FOps w) (s : Nat) (us : List (Upd w)) : SAct w V Unit := fun i j ys p =>
  (us.foldl (fun σ u => u.apply B F s i j ys σ) p.1, ())

/-- Members which the functor reads. -/
def Reads (K : Pairs w) (us : List (Upd w)) (r k : Nat) : Prop :=
  (∃ v ∈ K.vars, (K.src v).r = r ∧ (K.src v).k = k) ∨
    ∃ u ∈ us, ∃ v ∈ u.code.vars, ∃ m, u.arg v = .mem m ∧ m.r = r ∧ m.k = k

/-- Members which the functor reads or writes. -/
def Uses (K : Pairs w) (us : List (Upd w)) (r k : Nat) : Prop := Reads K us r k ∨ ∃ u ∈ us, u.dst.r = r ∧ u.dst.k = k

/-- Statements use lanes which exist and don't assign to members on which the vectors depend. -/
structure Separate (K : Pairs w) (us : List (Upd w)) : Prop where
  lanes : ∀ u ∈ us, ∀ v ∈ u.code.vars, ∀ k, u.arg v = .val k → k < K.vals.length
  apart : ∀ u ∈ us, ∀ v ∈ K.vars, ¬ (u.dst.r = (K.src v).r ∧ u.dst.k = (K.src v).k)

/-- Members which are read hold numbers. -/
def Numbers (B : Bits w V) (s : Nat) (rng : Int → Prop) (P : Nat → Nat → Prop) (σ : Loc → V) : Prop :=
  ∀ r k, P r k → ∀ x, rng x → (B.bits (σ (mem s x r k))).isSome = true

theorem Numbers.apply {B : Bits w V} {F : FOps w} {s : Nat} {rng : Int → Prop} {P : Nat → Nat → Prop} {σ : Loc → V} (h : Numbers B s rng P σ)
    (i j : Int) (ys : List (BitVec w)) (u : Upd w) : Numbers B s rng P (u.apply B F s i j ys σ) := by
  intro r k hp x hx
  unfold Upd.apply
  by_cases he : mem s x r k = mem s (if u.dst.own then i else j) u.dst.r u.dst.k
  · rw [if_pos he, B.bits_val]; rfl
  · rw [if_neg he]; exact h r k hp x hx

theorem exec_ok (hL : C.L.WF) (B : Bits w V) (base : Nat → Nat) (E : FEnv) (F : FOps w) (hw : 0 < w / 8) {A : One} {W : World V} {s : Nat}
    (hs : Has C W s A.e A.id) {h : Heap V} {σ : Loc → V} (hG : Good C dv W h σ) {i j : Int} {ys : List (BitVec w)} {u : Upd w}
    (hdst : Reach C w base A W s (if u.dst.own then i else j) u.dst.r u.dst.k)
    (hval : ∀ v ∈ u.code.vars, ∀ k, u.arg v = .val k → k < ys.length)
    (hmem : ∀ v ∈ u.code.vars, ∀ m, u.arg v = .mem m → Reach C w base A W s (if m.own then i else j) m.r m.k ∧
      (B.bits (σ (mem s (if m.own then i else j) m.r m.k))).isSome = true) :
    ∃ h', u.exec ⟨C.L, B, base, E⟩ F A i j ys h = some h' ∧ Good C dv W h' (u.apply B F s i j ys σ) := by
  have henv : ∀ v ∈ u.code.vars, u.env ⟨C.L, B, base, E⟩ A i j ys h v = some (match u.arg v with
      | .val k => ys.getD k 0
      | .mem m => (B.bits (σ (mem s (if m.own then i else j) m.r m.k))).getD 0) := by
    intro v hv
    unfold Upd.env
    cases ha : u.arg v with
    | val k =>
      have := hval v hv k ha
      simp [List.getD, this]
    | mem m =>
      obtain ⟨h1, h2⟩ := hmem v hv m ha
      simp only
      rw [fetch_ok hL B base E hw hs hG h1]
      obtain ⟨x, hx⟩ := Option.isSome_iff_exists.1 h2
      rw [hx]; rfl
  obtain ⟨h', k1, k2⟩ := store_ok (dv := dv) hL B base E hw hs hG hdst (u.value B F s i j ys σ)
  refine ⟨h', ?_, k2⟩
  unfold Upd.exec
  rw [if_pos, ← k1]
  · unfold Upd.value
    rw [SV.Expr.scalar_congr F u.code fun v hv => by rw [henv v hv, Option.getD_some]]
  · rw [List.all_eq_true]
    intro v hv
    rw [henv v hv]; rfl

/-- Memory holds the values of the scalar code. -/
def Direct (C : Cfg V) (dv : V) (B : Bits w V) (W : World V) (s : Nat) (rng : Int → Prop) (P : Nat → Nat → Prop)
    (st : Heap V × Unit) (p : (Loc → V) × Unit) : Prop := Good C dv W st.1 p.1 ∧ Numbers B s rng P p.1

theorem direct_implements (hL : C.L.WF) (B : Bits w V) (base : Nat → Nat) (E : FEnv) (F : FOps w) (hw : 0 < w / 8) {A : One} {W : World V}
    {s : Nat} (hs : Has C W s A.e A.id) {K : Pairs w} {us : List (Upd w)} (hu : Separate K us) {rng : Int → Prop}
    (hr : ∀ r k, Uses K us r k → ∀ x, rng x → Reach C w base A W s x r k) :
    Implements C dv B W s K rng (Direct C dv B W s rng (Reads K us)) (execAll ⟨C.L, B, base, E⟩ F A us) (applyAll B F s us) where
  good := fun st p h => ⟨p.1, h.1, fun _ _ _ _ => rfl⟩
  num := fun st p h v hv x hx => h.2 _ _ (Or.inl ⟨v, hv, rfl, rfl⟩) x hx
  keep := by
    intro i j ys p _ _ v hv x _
    have : ∀ (vs : List (Upd w)), (∀ u ∈ vs, u ∈ us) → ∀ σ : Loc → V, vs.foldl (fun σ u => u.apply B F s i j ys σ) σ
        (mem s x (K.src v).r (K.src v).k) = σ (mem s x (K.src v).r (K.src v).k) := by
      intro vs
      induction vs with
      | nil => intro _ _; rfl
      | cons u vs ih =>
        intro hvs σ
        rw [List.foldl_cons, ih fun u' h' => hvs u' (by simp [h'])]
        unfold Upd.apply
        rw [if_neg]
        intro he
        simp only [mem, Loc.mk.injEq] at he
        exact hu.apart u (hvs u (by simp)) v hv ⟨he.2.2.2.2.1.symm, he.2.2.2.2.2.symm⟩
    exact this us (fun _ h => h) p.1
  step := by
    intro st p i j ys hys h hi hj
    have hij : ∀ b : Bool, rng (if b then i else j) := fun b => by split <;> assumption
    have : ∀ (vs : List (Upd w)), (∀ u ∈ vs, u ∈ us) → ∀ (h : Heap V) (σ : Loc → V), Good C dv W h σ → Numbers B s rng (Reads K us) σ →
        ∃ h', vs.foldlM (fun h (u : Upd w) => u.exec ⟨C.L, B, base, E⟩ F A i j ys h) h = some h' ∧
          Good C dv W h' (vs.foldl (fun σ u => u.apply B F s i j ys σ) σ) ∧
          Numbers B s rng (Reads K us) (vs.foldl (fun σ u => u.apply B F s i j ys σ) σ) := by
      intro vs
      induction vs with
      | nil => intro _ h σ hG hn; exact ⟨h, rfl, hG, hn⟩
      | cons u vs ih =>
        intro hvs h σ hG hn
        have huu := hvs u (by simp)
        obtain ⟨h1, k1, k2⟩ := exec_ok (dv := dv) hL B base E F hw hs hG (i := i) (j := j) (ys := ys) (u := u)
          (hr _ _ (Or.inr ⟨u, huu, rfl, rfl⟩) _ (hij _)) (fun v hv k hk => by rw [hys]; exact hu.lanes u huu v hv k hk)
          (fun v hv m hm => by
            have : Reads K us m.r m.k := Or.inr ⟨u, huu, v, hv, m, hm, rfl, rfl⟩
            exact ⟨hr _ _ (Or.inl this) _ (hij _), hn _ _ this _ (hij _)⟩)
        obtain ⟨h2, k3, k4, k5⟩ := ih (fun u' h' => hvs u' (by simp [h'])) h1 _ k2 (hn.apply i j ys u)
        exact ⟨h2, by simp [List.foldlM_cons, k1, k3], k4, k5⟩
    obtain ⟨h', k1, k2, k3⟩ := this us (fun _ h => h) st.1 p.1 h.1 h.2
    exact ⟨(h', ()), by simp [execAll, k1], k2, k3⟩

/-! ### The functor -/

theorem runFunctor_ok (hL : C.L.WF) {W : World V} (hV : Valid C dv W) {s : Nat} {d ext : Ext} (hd : selectSizes C.tr d = .ok ext)
    (hds : DimsAre C W s d) (hne : d ≠ ⟨0, 0, 0⟩) {σ : Loc → V} (hσ : ∀ l, InGrid C W l → ValueIs C W l (σ l)) {σ' : Loc → V}
    {f : One → Heap V → Option (Heap V)}
    (hf : ∀ A : One, A.e = ext → Has C W s A.e A.id → Good C dv W W.h σ → ∃ h', f A W.h = some h' ∧ Good C dv W h' σ') :
    Yields C dv W σ' (runFunctor C f W s) := by
  obtain ⟨a, hR⟩ := hV.refines hL
  obtain ⟨id, g, i1, i2, i3, i4⟩ := has_of_dims hR hds hne hd
  obtain ⟨h', k1, k2⟩ := hf ⟨ext, id⟩ rfl i4 ⟨hV, hσ⟩
  refine ⟨⟨h', W.g⟩, ?_, k2.1, dimsAre_same rfl, fun l hl => k2.2 l hl⟩
  simp only [runFunctor, World.withG, i1, i2, hd, i3, Option.getD_some, k1]

/-- Members of particles in a grid with these extents may be accessed. -/
theorem reach {base : Nat → Nat} {A : One} {W : World V} {s : Nat} {d : Ext} (hds : DimsAre C W s d) (hb : w / 8 ∣ base A.id)
    (hx : w / 8 ∣ A.e.x * A.e.y * A.e.z) (hy : 0 < d.y) (hz : 0 < d.z) {r k : Nat}
    (hm : ∃ m, C.L[r]? = some m ∧ m.ty.size = w / 8 ∧ k < m.elems) {x : Int} (h0 : 0 ≤ x) (h1 : x < d.x) : Reach C w base A W s x r k := by
  obtain ⟨m, m1, m2, m3⟩ := hm
  refine ⟨⟨d, m, hds, m1, m3, h0, h1, by simp [mem], by simpa [mem] using hy, by simp [mem], by simpa [mem] using hz⟩, m, m1, m2, ?_, by simp⟩
  obtain ⟨n, hn, -⟩ := addr_form C.L (base A.id) A.e x 0 0 ⟨0, 0, 0, r, k⟩ m
  rw [hn, m2]
  exact Int.dvd_add (Int.dvd_add (Int.natCast_dvd_natCast.2 hb) (Int.natCast_dvd_natCast.2 (Dvd.dvd.mul_right hx _))) ⟨n, Int.mul_comm _ _⟩

/-- Number of particles which the functor accesses. -/
def pairEnd (N n : Nat) : Nat := if N ∣ n then n else N * (n / N + 1)

theorem pairEnd_rng {N n : Nat} (hN : 0 < N) (i : Int) (i1 : i < n) :
    i < pairEnd N n ∧ ∀ j, j < pairStop N n i → j < pairEnd N n := by
  have hdm := Nat.div_add_mod n N
  have hmod := Nat.mod_lt n hN
  have e1 : N * (n / N + 1) = N * (n / N) + N := Nat.mul_succ _ _
  have hle : n ≤ pairEnd N n := by unfold pairEnd; split <;> omega
  refine ⟨by omega, fun j hj => ?_⟩
  by_cases hd : N ∣ n
  · rw [pairStop_dvd hd i1] at hj; omega
  · unfold pairStop at hj
    have e2 : (N : Int) * (n / N + 1 : Nat) = ((N * (n / N + 1) : Nat) : Int) := by push_cast; rfl
    split at hj
    · omega
    · unfold pairEnd; rw [if_neg hd]; omega

theorem direct_ok (hL : C.L.WF) (B : Bits w V) (base : Nat → Nat) (E : FEnv) (F : FOps w) {K : Pairs w} {e1 e : Entry w}
    {Q1 Q : Reqs} {d f c : Bool} (H1 : Faithful e1.impl e1.cmp E F d f c) (H : Faithful e.impl e.cmp E F d f c)
    (T1 : Transfers e1.impl Q1 E) (T : Transfers e.impl Q E) (hQ1 : Q1.any = 1) (hQ : Q.any = 1) (hT1 : Tests e1 E F) (hT : Tests e E F)
    (h1 : e1.impl.N = 1) (hk : K.test.only d f c = true) (hks : ∀ ex ∈ K.vals, ex.only d f c = true) (hw : 0 < w / 8) (hN : 0 < e.impl.N)
    {us : List (Upd w)} (hu : Separate K us) {t : Counters} {n : Nat} (ht : t.Ok e.impl.N n) {A : One} {W : World V} {s : Nat}
    {dm : Ext} (hx : w / 8 ∣ A.e.x * A.e.y * A.e.z) (hb : w / 8 ∣ base A.id)
    (hds : DimsAre C W s dm) (hdx : pairEnd e.impl.N n ≤ dm.x) (hdy : 0 < dm.y) (hdz : 0 < dm.z) (hs : Has C W s A.e A.id)
    (hm : ∀ r k, Uses K us r k → ∃ m, C.L[r]? = some m ∧ m.ty.size = w / 8 ∧ k < m.elems)
    {h : Heap V} {σ : Loc → V} (hG : Good C dv W h σ)
    (hnum : Numbers B s (fun x => 0 ≤ x ∧ x < pairEnd e.impl.N n) (Reads K us) σ) :
    ∃ h', K.direct ⟨C.L, B, base, E⟩ F us t e1 e n A h = some h' ∧
      Good C dv W h' (K.all B F s (applyAll B F s us) n (pairStop e.impl.N n) (σ, ())).1 := by
  have hr : ∀ r k, Uses K us r k → ∀ x : Int, (0 ≤ x ∧ x < pairEnd e.impl.N n) → Reach C w base A W s x r k := fun r k hrk x hx' =>
    reach hds hb hx hdy hdz (hm r k hrk) hx'.1 (by omega)
  obtain ⟨st', k1, k2⟩ := search_ok hL B base E F H1 H T1 T hQ1 hQ hT1 hT h1 hk hks hw hN hs
    (fun v hv x hx' => hr _ _ (Or.inl (Or.inl ⟨v, hv, rfl, rfl⟩)) x hx') (direct_implements (dv := dv) hL B base E F hw hs hu hr) t n _ (scans hN ht)
    (fun i i0 i1 => ⟨⟨i0, (pairEnd_rng hN i i1).1⟩, fun j j0 j1 => ⟨by omega, (pairEnd_rng hN i i1).2 j j1⟩⟩) (h, ()) (σ, ()) ⟨hG, hnum⟩
  exact ⟨st'.1, by rw [Pairs.direct, k1]; rfl, k2.1⟩

theorem interact_ok (hL : C.L.WF) (B : Bits w V) (base : Nat → Nat) (E : FEnv) (F : FOps w) {K : Pairs w} {e1 e : Entry w}
    {Q1 Q : Reqs} {d f c : Bool} (H1 : Faithful e1.impl e1.cmp E F d f c) (H : Faithful e.impl e.cmp E F d f c)
    (T1 : Transfers e1.impl Q1 E) (T : Transfers e.impl Q E) (hQ1 : Q1.any = 1) (hQ : Q.any = 1) (hT1 : Tests e1 E F) (hT : Tests e E F)
    (h1 : e1.impl.N = 1) (hk : K.test.only d f c = true) (hks : ∀ ex ∈ K.vals, ex.only d f c = true) (hw : 0 < w / 8) (hN : 0 < e.impl.N)
    {us : List (Upd w)} (hu : Separate K us) {t : Counters} {n : Nat} (ht : t.Ok e.impl.N n) {W : World V} (hV : Valid C dv W) {s : Nat}
    {dm ext : Ext} (hd : selectSizes C.tr dm = .ok ext) (hx : w / 8 ∣ ext.x * ext.y * ext.z) (hb : ∀ id, w / 8 ∣ base id)
    (hds : DimsAre C W s dm) (hdx : pairEnd e.impl.N n ≤ dm.x) (hdy : 0 < dm.y) (hdz : 0 < dm.z)
    (hm : ∀ r k, Uses K us r k → ∃ m, C.L[r]? = some m ∧ m.ty.size = w / 8 ∧ k < m.elems)
    {σ : Loc → V} (hσ : ∀ l, InGrid C W l → ValueIs C W l (σ l))
    (hnum : Numbers B s (fun x => 0 ≤ x ∧ x < pairEnd e.impl.N n) (Reads K us) σ) :
    Yields C dv W (K.all B F s (applyAll B F s us) n (pairStop e.impl.N n) (σ, ())).1 (interact C B base E F K us t e1 e n W s) :=
  runFunctor_ok hL hV hd hds (by rintro rfl; simp at hdy) hσ fun A hA hs hG =>
    direct_ok hL B base E F H1 H T1 T hQ1 hQ hT1 hT h1 hk hks hw hN hu ht (by rw [hA]; exact hx) (hb _) hds hdx hdy hdz hs hm hG hnum

/-! ### C65 -/

theorem float_interact (hL : C.L.WF) (c : SV.Cfg) (e1 e : Entry 32) (he1 : e1 ∈ SV.floatVecs c) (h1 : e1.impl.N = 1)
    (he : e ∈ SV.floatVecs c) (hcmp : SV.hasFloatCmp c e.impl.N = true) (E : FEnv) (B : Bits 32 V) (base : Nat → Nat) (hb : ∀ id, 4 ∣ base id)
    (K : Pairs 32) (hk : K.test.only (SV.exactDiv c e.impl.N) (!SV.usesNeon c e.impl.N) true = true)
    (hks : ∀ ex ∈ K.vals, ex.only (SV.exactDiv c e.impl.N) (!SV.usesNeon c e.impl.N) true = true) (us : List (Upd 32)) (hu : Separate K us)
    (t : Counters) (n : Nat) (ht : t.Ok e.impl.N n) (W : World V) (hV : Valid C dv W) (s : Nat) (d ext : Ext)
    (hd : selectSizes C.tr d = .ok ext) (hx : 4 ∣ ext.x * ext.y * ext.z) (hds : DimsAre C W s d) (hdx : pairEnd e.impl.N n ≤ d.x)
    (hdy : 0 < d.y) (hdz : 0 < d.z) (hm : ∀ r k, Uses K us r k → ∃ m, C.L[r]? = some m ∧ m.ty.size = 4 ∧ k < m.elems)
    (σ : Loc → V) (hσ : ∀ l, InGrid C W l → ValueIs C W l (σ l))
    (hnum : Numbers B s (fun x => 0 ≤ x ∧ x < pairEnd e.impl.N n) (Reads K us) σ) :
    Yields C dv W (K.all B E.f32 s (applyAll B E.f32 s us) n (pairStop e.impl.N n) (σ, ())).1
      (interact C B base E E.f32 K us t e1 e n W s) := by
  have hN := SV.float_arity c e he
  have hpos : 0 < e.impl.N := by
    have : ∀ n ∈ [1, 2, 4, 8, 16, 32], 0 < n := by decide
    exact this _ hN
  have H := SV.float_faithful c e he E
  rw [SV.C45_float_available c e he, hcmp] at H
  have hcmp1 : SV.hasFloatCmp c e1.impl.N = true := by rw [h1]; cases c <;> rfl
  have H1 := SV.float_faithful c e1 he1 E
  rw [SV.C45_float_available c e1 he1, hcmp1] at H1
  obtain ⟨D, hD⟩ := Option.isSome_iff_exists.1 ((SV.C45_float_available c e he).trans hcmp)
  obtain ⟨D1, hD1⟩ := Option.isSome_iff_exists.1 ((SV.C45_float_available c e1 he1).trans hcmp1)
  refine interact_ok hL B base E E.f32 (H1.weaken ?_ ?_ id) H (SV.C46_float_partial c e1 he1 E) (SV.C46_float_partial c e he E) ?_ ?_
    (tests (F := FEnv.f32) hD1 (SV.float_arith c e1 he1).len (SV.float_cmp c e1 he1 D1 hD1))
    (tests (F := FEnv.f32) hD (SV.float_arith c e he).len (SV.float_cmp c e he D hD))
    h1 hk hks (by decide) hpos hu ht hV hd hx hb hds hdx hdy hdz hm hσ hnum
  · rw [h1]; intro _; rfl
  · rw [h1]; intro _; simp only [SV.usesNeon]; rfl
  · rw [h1]; cases c <;> rfl
  · have : ∀ n ∈ [1, 2, 4, 8, 16, 32], SV.hasFloatCmp c n = true → (SV.floatReqs c n).any = 1 := by cases c <;> decide
    exact this _ hN hcmp

/-- C65 for `float`: a functor which finds interacting pairs with vectors of any arity, tests these with `any()` and updates members of both
    particles by scalar code for the lanes which `get()` tells to interact, computes what two nested scalar loops over the `n` particles
    compute. Missing: numbers of particles which are no multiples of the arity (C65_false). -/
theorem C65_float_partial (hL : C.L.WF) (c : SV.Cfg) (e1 e : Entry 32) (he1 : e1 ∈ SV.floatVecs c) (h1 : e1.impl.N = 1)
    (he : e ∈ SV.floatVecs c) (hcmp : SV.hasFloatCmp c e.impl.N = true) (E : FEnv) (B : Bits 32 V) (base : Nat → Nat) (hb : ∀ id, 4 ∣ base id)
    (K : Pairs 32) (hk : K.test.only (SV.exactDiv c e.impl.N) (!SV.usesNeon c e.impl.N) true = true)
    (hks : ∀ ex ∈ K.vals, ex.only (SV.exactDiv c e.impl.N) (!SV.usesNeon c e.impl.N) true = true) (us : List (Upd 32)) (hu : Separate K us)
    (t : Counters) (n : Nat) (ht : t.Ok e.impl.N n) (hn : e.impl.N ∣ n) (W : World V) (hV : Valid C dv W) (s : Nat) (d ext : Ext)
    (hd : selectSizes C.tr d = .ok ext) (hx : 4 ∣ ext.x * ext.y * ext.z) (hds : DimsAre C W s d) (hdx : n ≤ d.x)
    (hdy : 0 < d.y) (hdz : 0 < d.z) (hm : ∀ r k, Uses K us r k → ∃ m, C.L[r]? = some m ∧ m.ty.size = 4 ∧ k < m.elems)
    (σ : Loc → V) (hσ : ∀ l, InGrid C W l → ValueIs C W l (σ l))
    (hnum : Numbers B s (fun x => 0 ≤ x ∧ x < n) (Reads K us) σ) :
    Yields C dv W (K.all B E.f32 s (applyAll B E.f32 s us) n (fun _ => n) (σ, ())).1 (interact C B base E E.f32 K us t e1 e n W s) := by
  have he' : pairEnd e.impl.N n = n := if_pos hn
  have := float_interact hL c e1 e he1 h1 he hcmp E B base hb K hk hks us hu t n ht W hV s d ext hd hx hds (by rw [he']; exact hdx) hdy hdz hm σ hσ
    (by rw [he']; exact hnum)
  rwa [all_congr _ fun i _ hi => pairStop_dvd hn hi] at this

theorem only_all : ∀ ex : Expr w, ex.only true true true = true := by
  intro ex
  induction ex <;> simp [Expr.only, *]

theorem double_interact (hL : C.L.WF) (c : SV.Cfg) (e1 e : Entry 64) (he1 : e1 ∈ SV.doubleVecs c) (h1 : e1.impl.N = 1)
    (he : e ∈ SV.doubleVecs c) (hcmp : SV.hasDoubleCmp c e.impl.N = true) (E : FEnv) (B : Bits 64 V) (base : Nat → Nat) (hb : ∀ id, 8 ∣ base id)
    (K : Pairs 64) (us : List (Upd 64)) (hu : Separate K us)
    (t : Counters) (n : Nat) (ht : t.Ok e.impl.N n) (W : World V) (hV : Valid C dv W) (s : Nat) (d ext : Ext)
    (hd : selectSizes C.tr d = .ok ext) (hx : 8 ∣ ext.x * ext.y * ext.z) (hds : DimsAre C W s d) (hdx : pairEnd e.impl.N n ≤ d.x)
    (hdy : 0 < d.y) (hdz : 0 < d.z) (hm : ∀ r k, Uses K us r k → ∃ m, C.L[r]? = some m ∧ m.ty.size = 8 ∧ k < m.elems)
    (σ : Loc → V) (hσ : ∀ l, InGrid C W l → ValueIs C W l (σ l))
    (hnum : Numbers B s (fun x => 0 ≤ x ∧ x < pairEnd e.impl.N n) (Reads K us) σ) :
    Yields C dv W (K.all B E.f64 s (applyAll B E.f64 s us) n (pairStop e.impl.N n) (σ, ())).1
      (interact C B base E E.f64 K us t e1 e n W s) := by
  have hN := SV.double_arity c e he
  have hpos : 0 < e.impl.N := by
    have : ∀ n ∈ [1, 2, 4, 8, 16, 32], 0 < n := by decide
    exact this _ hN
  -- where there are comparisons, there are exact divisions and unaligned loads
  have hqpx : ¬ (c = .qpx ∧ 2 < e.impl.N) := by
    rintro ⟨rfl, h⟩
    simp only [SV.hasDoubleCmp, decide_eq_true_eq] at hcmp
    omega
  have H := SV.double_faithful c e he E
  rw [SV.C45_double_available c e he, hcmp, decide_eq_false hqpx] at H
  have hcmp1 : SV.hasDoubleCmp c e1.impl.N = true := by rw [h1]; cases c <;> rfl
  have H1 := SV.double_faithful c e1 he1 E
  rw [SV.C45_double_available c e1 he1, hcmp1] at H1
  obtain ⟨D, hD⟩ := Option.isSome_iff_exists.1 ((SV.C45_double_available c e he).trans hcmp)
  obtain ⟨D1, hD1⟩ := Option.isSome_iff_exists.1 ((SV.C45_double_available c e1 he1).trans hcmp1)
  refine interact_ok hL B base E E.f64 (H1.weaken ?_ ?_ id) H (SV.C46_double_partial c e1 he1 E) (SV.C46_double_partial c e he E) ?_ ?_
    (tests (F := FEnv.f64) hD1 (SV.double_arith c e1 he1).len (SV.double_cmp c e1 he1 D1 hD1))
    (tests (F := FEnv.f64) hD (SV.double_arith c e he).len (SV.double_cmp c e he D hD))
    h1 (only_all _) (fun ex _ => only_all ex) (by decide) hpos hu ht hV hd hx hb hds hdx hdy hdz hm hσ hnum
  · rw [h1]; intro _; simp
  · rw [h1]; intro _; simp
  · rw [h1]; cases c <;> rfl
  · have : ∀ n ∈ [1, 2, 4, 8, 16, 32], ¬ (c = .qpx ∧ 2 < n) → (SV.doubleReqs c n).any = 1 := by cases c <;> decide
    exact this _ hN hqpx

/-- C65 for `double`. -/
theorem C65_double_partial (hL : C.L.WF) (c : SV.Cfg) (e1 e : Entry 64) (he1 : e1 ∈ SV.doubleVecs c) (h1 : e1.impl.N = 1)
    (he : e ∈ SV.doubleVecs c) (hcmp : SV.hasDoubleCmp c e.impl.N = true) (E : FEnv) (B : Bits 64 V) (base : Nat → Nat) (hb : ∀ id, 8 ∣ base id)
    (K : Pairs 64) (us : List (Upd 64)) (hu : Separate K us)
    (t : Counters) (n : Nat) (ht : t.Ok e.impl.N n) (hn : e.impl.N ∣ n) (W : World V) (hV : Valid C dv W) (s : Nat) (d ext : Ext)
    (hd : selectSizes C.tr d = .ok ext) (hx : 8 ∣ ext.x * ext.y * ext.z) (hds : DimsAre C W s d) (hdx : n ≤ d.x)
    (hdy : 0 < d.y) (hdz : 0 < d.z) (hm : ∀ r k, Uses K us r k → ∃ m, C.L[r]? = some m ∧ m.ty.size = 8 ∧ k < m.elems)
    (σ : Loc → V) (hσ : ∀ l, InGrid C W l → ValueIs C W l (σ l))
    (hnum : Numbers B s (fun x => 0 ≤ x ∧ x < n) (Reads K us) σ) :
    Yields C dv W (K.all B E.f64 s (applyAll B E.f64 s us) n (fun _ => n) (σ, ())).1 (interact C B base E E.f64 K us t e1 e n W s) := by
  have he' : pairEnd e.impl.N n = n := if_pos hn
  have := double_interact hL c e1 e he1 h1 he hcmp E B base hb K us hu t n ht W hV s d ext hd hx hds (by rw [he']; exact hdx) hdy hdz hm σ hσ
    (by rw [he']; exact hnum)
  rwa [all_congr _ fun i _ hi => pairStop_dvd hn hi] at this

/-! ### Numbers of particles which are no multiples of the arity -/

theorem foldl_keep {α β : Type} (f : β → α → β) (P : β → Prop) : ∀ (l : List α), (∀ x ∈ l, ∀ b, P b → P (f b x)) → ∀ b, P b → P (l.foldl f b) := by
  intro l
  induction l with
  | nil => intro _ b h; exact h
  | cons x l ih => intro h b hb; exact ih (fun y hy => h y (by simp [hy])) _ (h x (by simp) b hb)

theorem foldl_hit {α β : Type} (f : β → α → β) (P : β → Prop) : ∀ (l : List α), (∀ x ∈ l, ∀ b, P b → P (f b x)) → ∀ x ∈ l,
    (∀ b, P (f b x)) → ∀ b, P (l.foldl f b) := by
  intro l
  induction l with
  | nil => intro _ x hx; cases hx
  | cons y l ih =>
    intro h x hx hf b
    rcases List.mem_cons.1 hx with rfl | hx
    · exact foldl_keep f P l (fun z hz => h z (by simp [hz])) _ (hf b)
    · exact ih (fun z hz => h z (by simp [hz])) x hx hf _

/-- Pairs always interact, `member = y` for the second particle. -/
def marks (x thr : BitVec w) : Pairs w := ⟨.const x, .lt, thr, [], fun _ => ⟨false, 0, 0⟩⟩
def mark (r k : Nat) (y : BitVec w) : List (Upd w) := [⟨⟨false, r, k⟩, .const y, fun _ => .val 0⟩]

/-- C65 is false for numbers of particles which are no multiples of the arity: the last particles also interact with the next one in the
    grid, although it is none of the `n` particles. The scalar loops don't change it. -/
theorem C65_false (hL : C.L.WF) (c : SV.Cfg) (e1 e : Entry 32) (he1 : e1 ∈ SV.floatVecs c) (h1 : e1.impl.N = 1)
    (he : e ∈ SV.floatVecs c) (hcmp : SV.hasFloatCmp c e.impl.N = true) (E : FEnv) (B : Bits 32 V) (base : Nat → Nat) (hb : ∀ id, 4 ∣ base id)
    (x thr y : BitVec 32) (hrel : E.f32.lt x thr = true) (r k : Nat) (t : Counters) (n : Nat) (ht : t.Ok e.impl.N n) (hn : ¬ e.impl.N ∣ n)
    (W : World V) (hV : Valid C dv W) (s : Nat) (d ext : Ext) (hd : selectSizes C.tr d = .ok ext) (hx : 4 ∣ ext.x * ext.y * ext.z)
    (hds : DimsAre C W s d) (hdx : n + e.impl.N ≤ d.x) (hdy : 0 < d.y) (hdz : 0 < d.z)
    (hm : ∃ m, C.L[r]? = some m ∧ m.ty.size = 4 ∧ k < m.elems) (σ : Loc → V) (hσ : ∀ l, InGrid C W l → ValueIs C W l (σ l)) :
    ∃ σ', Yields C dv W σ' (interact C B base E E.f32 (marks x thr) (mark r k y) t e1 e n W s) ∧ InGrid C W (mem s n r k) ∧
      σ' (mem s n r k) = B.val y ∧
      ((marks x thr).all B E.f32 s (applyAll B E.f32 s (mark r k y)) n (fun _ => n) (σ, ())).1 (mem s n r k) = σ (mem s n r k) := by
  have hpos : 0 < e.impl.N := by
    have : ∀ n ∈ [1, 2, 4, 8, 16, 32], 0 < n := by decide
    exact this _ (SV.float_arity c e he)
  have hdm := Nat.div_add_mod n e.impl.N
  have hmod := Nat.mod_lt n hpos
  have hm0 : n % e.impl.N ≠ 0 := fun h => hn (Nat.dvd_of_mod_eq_zero h)
  have e1' : e.impl.N * (n / e.impl.N + 1) = e.impl.N * (n / e.impl.N) + e.impl.N := Nat.mul_succ _ _
  have hstep : ∀ (i j : Int) (p : (Loc → V) × Unit), (marks x thr).step B E.f32 s (applyAll B E.f32 s (mark r k y)) i j p =
      (fun l => if l = mem s j r k then B.val y else p.1 l, ()) := by
    intro i j p
    have : E.f32.rel (marks x thr).rel ((marks x thr).eval B E.f32 s p.1 i j (marks x thr).test) (marks x thr).thr = true := hrel
    unfold Pairs.step
    rw [if_pos this]
    rfl
  refine ⟨_, float_interact hL c e1 e he1 h1 he hcmp E B base hb (marks x thr) rfl (fun ex hex => (nomatch hex)) (mark r k y) ⟨?_, ?_⟩ t n ht
    W hV s d ext hd hx hds ?_ hdy hdz ?_ σ hσ ?_, ?_, ?_, ?_⟩
  · intro u hu v hv
    simp only [mark, List.mem_singleton] at hu
    subst hu
    cases hv
  · intro u _ v hv
    cases hv
  · unfold pairEnd
    rw [if_neg hn]
    omega
  · rintro r' k' (h | ⟨u, hu, rfl, rfl⟩)
    · rcases h with ⟨v, hv, -⟩ | ⟨u, hu, v, hv, -⟩
      · cases hv
      · simp only [mark, List.mem_singleton] at hu
        subst hu
        cases hv
    · simp only [mark, List.mem_singleton] at hu
      subst hu
      exact hm
  · rintro r' k' (⟨v, hv, -⟩ | ⟨u, hu, v, hv, -⟩)
    · cases hv
    · simp only [mark, List.mem_singleton] at hu
      subst hu
      cases hv
  · obtain ⟨m, m1, -, m3⟩ := hm
    exact ⟨d, m, hds, m1, m3, by simp [mem], by simp only [mem]; omega, by simp [mem], by simpa [mem] using hdy, by simp [mem],
      by simpa [mem] using hdz⟩
  · refine foldl_hit _ (fun p : (Loc → V) × Unit => p.1 (mem s n r k) = B.val y) _ (fun i _ p hp => ?_) ((n : Int) - 1)
      (mem_iota.2 ⟨by omega, by omega⟩) (fun p => ?_) _
    · refine foldl_keep _ (fun p : (Loc → V) × Unit => p.1 (mem s n r k) = B.val y) _ (fun j _ p hp => ?_) _ hp
      rw [hstep]
      simp only
      split
      · rfl
      · exact hp
    · refine foldl_hit _ (fun p : (Loc → V) × Unit => p.1 (mem s n r k) = B.val y) _ (fun j _ p hp => ?_) (n : Int)
        (mem_iota.2 ⟨by omega, ?_⟩) (fun p => ?_) _
      · rw [hstep]
        simp only
        split
        · rfl
        · exact hp
      · unfold pairStop
        rw [if_neg (by rw [← Int.natCast_mul]; omega), ← Int.natCast_mul]
        omega
      · rw [hstep]
        simp only [if_true]
  · refine foldl_keep _ (fun p : (Loc → V) × Unit => p.1 (mem s n r k) = σ (mem s n r k)) _ (fun i hi p hp => ?_) _ rfl
    refine foldl_keep _ (fun p : (Loc → V) × Unit => p.1 (mem s n r k) = σ (mem s n r k)) _ (fun j hj p hp => ?_) _ hp
    have h2 := mem_iota.1 hj
    have h3 := mem_iota.1 hi
    simp only at h2
    rw [hstep]
    simp only
    rw [if_neg]
    · exact hp
    · intro h
      simp only [mem, Loc.mk.injEq] at h
      omega

/-! ### The hypotheses can be met -/
namespace Demo

/-- compute_density_lfa for struct { float rho; float pos[2]; }: `overlap = h² - (pos_i - pos_j)²` (kernels.hpp:102-107). The constants are
    bit patterns. -/
def density : Pairs 32 where
  test := .sub (.const 0x3f000000) (.add (.mul (.sub (.var 0) (.var 1)) (.sub (.var 0) (.var 1))) (.mul (.sub (.var 2) (.var 3)) (.sub (.var 2) (.var 3))))
  rel := .gt
  thr := 0
  vals := [.sub (.const 0x3f000000) (.add (.mul (.sub (.var 0) (.var 1)) (.sub (.var 0) (.var 1)))
    (.mul (.sub (.var 2) (.var 3)) (.sub (.var 2) (.var 3))))]
  src := fun v => ⟨v % 2 == 0, 1, v / 2⟩

/-- `rho_i += C * o * o * o; rho_j += C * o * o * o` (kernels.hpp:111-113). -/
def densityUpdates : List (Upd 32) := [true, false].map fun own =>
  ⟨⟨own, 0, 0⟩, .add (.var 1) (.mul (.mul (.mul (.const 0x40000000) (.var 0)) (.var 0)) (.var 0)), fun v => if v = 0 then .val 0 else .mem ⟨own, 0, 0⟩⟩

theorem density_vars {v : Nat} (h : v ∈ density.vars) : v < 4 := by
  simp [density, Pairs.vars, Expr.vars] at h
  omega

theorem density_upd {u : Upd 32} (h : u ∈ densityUpdates) : ∃ own, u = ⟨⟨own, 0, 0⟩,
    .add (.var 1) (.mul (.mul (.mul (.const 0x40000000) (.var 0)) (.var 0)) (.var 0)),
    fun v => if v = 0 then .val 0 else .mem ⟨own, 0, 0⟩⟩ := by
  obtain ⟨own, -, rfl⟩ := List.mem_map.1 h
  exact ⟨own, rfl⟩

theorem density_separate : Separate density densityUpdates where
  lanes := by
    intro u hu v _ k hk
    obtain ⟨own, rfl⟩ := density_upd hu
    simp only at hk
    split at hk
    · cases hk; decide
    · cases hk
  apart := by
    intro u hu v _ h
    obtain ⟨own, rfl⟩ := density_upd hu
    simp [density] at h

theorem density_uses {r k : Nat} (h : Uses density densityUpdates r k) : ∃ m, dC.L[r]? = some m ∧ m.ty.size = 4 ∧ k < m.elems := by
  rcases h with (⟨v, hv, rfl, rfl⟩ | ⟨u, hu, v, -, m, hm, rfl, rfl⟩) | ⟨u, hu, rfl, rfl⟩
  · have := density_vars hv
    exact ⟨_, rfl, rfl, by simp [density, Member.elems]; omega⟩
  · obtain ⟨own, rfl⟩ := density_upd hu
    simp only at hm
    split at hm
    · cases hm
    · cases hm
      exact ⟨_, rfl, rfl, by simp [Member.elems]⟩
  · obtain ⟨own, rfl⟩ := density_upd hu
    exact ⟨_, rfl, rfl, by simp [Member.elems]⟩

/-- The types in the example: `long` index, `int` for `n` and for the parameter of the lambda. -/
def counters : Counters := ⟨.signed 64, .signed 32, .signed 32⟩

/-- 40 of the particles of a grid of 60, on AVX with vectors of 8 `float`s. -/
example : ∃ W σ e1 e base, Yields dC 0 W (density.all B FEnv.demo.f32 0 (applyAll B FEnv.demo.f32 0 densityUpdates) 40 (fun _ => (40 : Nat)) (σ, ())).1
    (interact dC B base FEnv.demo FEnv.demo.f32 density densityUpdates counters e1 e 40 W 0) := by
  obtain ⟨W, hV, h0, -⟩ := world ⟨60, 1, 1⟩ ⟨64, 1, 1⟩ (by decide) (by decide)
  obtain ⟨σ, hσ⟩ := Thr.exists_store hL hV
  obtain ⟨e1, he1, hn1, e, he, hn⟩ : ∃ e1 ∈ SV.floatVecs .avx, e1.impl.N = 1 ∧ ∃ e ∈ SV.floatVecs .avx, e.impl.N = 8 :=
    ⟨_, List.mem_cons_self, rfl, _, List.mem_cons_of_mem _ (List.mem_cons_of_mem _ (List.mem_cons_of_mem _ List.mem_cons_self)), rfl⟩
  refine ⟨W, σ, e1, e, fun id => 4096 * (1 + 100000 * id), ?_⟩
  exact C65_float_partial hL .avx e1 e he1 hn1 he (by rw [hn]; rfl) FEnv.demo B _ (fun id => ⟨_, Nat.mul_assoc 4 1024 _⟩) density
    (by rw [hn]; decide) (by rw [hn]; decide) densityUpdates density_separate counters 40
    (by rw [hn]; exact ⟨by decide, by decide, by decide, by decide, by decide, by decide, by decide, by decide, by decide⟩)
    (by rw [hn]; decide) W hV 0 ⟨60, 1, 1⟩ ⟨64, 1, 1⟩ (by decide) (by decide) h0 (by decide) (by decide) (by decide) (fun r k h => density_uses h) σ hσ
    (fun _ _ _ _ _ => rfl)

/-- 41 of the particles: particle 41, which is the 42nd one, changes. -/
example : ∃ W σ σ' e1 e base, Yields dC 0 W σ' (interact dC B base FEnv.demo FEnv.demo.f32 (marks 0 1) (mark 0 0 7) counters e1 e 41 W 0) ∧
    σ' (mem 0 (41 : Nat) 0 0) = 7 ∧ ((marks 0 1).all B FEnv.demo.f32 0 (applyAll B FEnv.demo.f32 0 (mark 0 0 7)) 41 (fun _ => (41 : Nat)) (σ, ())).1
      (mem 0 (41 : Nat) 0 0) = σ (mem 0 (41 : Nat) 0 0) := by
  obtain ⟨W, hV, h0, -⟩ := world ⟨60, 1, 1⟩ ⟨64, 1, 1⟩ (by decide) (by decide)
  obtain ⟨σ, hσ⟩ := Thr.exists_store hL hV
  obtain ⟨e1, he1, hn1, e, he, hn⟩ : ∃ e1 ∈ SV.floatVecs .avx, e1.impl.N = 1 ∧ ∃ e ∈ SV.floatVecs .avx, e.impl.N = 8 :=
    ⟨_, List.mem_cons_self, rfl, _, List.mem_cons_of_mem _ (List.mem_cons_of_mem _ (List.mem_cons_of_mem _ List.mem_cons_self)), rfl⟩
  obtain ⟨σ', k1, -, k2, k3⟩ := C65_false hL .avx e1 e he1 hn1 he (by rw [hn]; rfl) FEnv.demo B (fun id => 4096 * (1 + 100000 * id))
    (fun id => ⟨_, Nat.mul_assoc 4 1024 _⟩) 0 1 7 (by decide) 0 0 counters 41
    (by rw [hn]; exact ⟨by decide, by decide, by decide, by decide, by decide, by decide, by decide, by decide, by decide⟩)
    (by rw [hn]; decide) W hV 0 ⟨60, 1, 1⟩ ⟨64, 1, 1⟩ (by decide) (by decide) h0 (by rw [hn]; decide) (by decide) (by decide)
    ⟨_, rfl, rfl, by decide⟩ σ hσ
  exact ⟨W, σ, σ', e1, e, _, k1, k2, k3⟩

end Demo
end LFA.GK
