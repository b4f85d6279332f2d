/-
  Kernels: code which is written for `short_vec` computes for each lane what the same code computes for scalars, on each target, and so
  do loops which have been peeled (C56).
-/
import Verif.Props.ShortVecMem
import Verif.Props.LoopPeeler
set_option autoImplicit false

namespace LFA.SV

/-- Code of a kernel, for which `T` may be a `short_vec` or a scalar. Variables are elements of arrays. -/
inductive Expr (w : Nat) where
  | var (k : Nat)
  | const (x : BitVec w)
  | add (a b : Expr w)
  | sub (a b : Expr w)
  | mul (a b : Expr w)
  | div (a b : Expr w)
  | sqrt (a : Expr w)
  /-- `blend(x, y, a < b)`, i.e. `(a < b) ? y : x`, likewise for the other relations -/
  | sel (r : Rel) (a b x y : Expr w)

/-- The code, executed for scalars. -/
def Expr.scalar {w : Nat} (F : FOps w) (env : Nat → BitVec w) : Expr w → BitVec w
  | .var k => env k
  | .const x => x
  | .add a b => F.add (a.scalar F env) (b.scalar F env)
  | .sub a b => F.sub (a.scalar F env) (b.scalar F env)
  | .mul a b => F.mul (a.scalar F env) (b.scalar F env)
  | .div a b => F.div (a.scalar F env) (b.scalar F env)
  | .sqrt a => F.sqrt (a.scalar F env)
  | .sel r a b x y => if F.rel r (a.scalar F env) (b.scalar F env) then y.scalar F env else x.scalar F env

/-- The code, executed for `short_vec`s. `none` if some operation is undefined or not available. -/
def Expr.vec {w : Nat} (I : Impl w) (C : Option (Cmp I)) (E : FEnv) (env : Nat → Option I.V) : Expr w → Option I.V
  | .var k => env k
  | .const x => some (I.bcast E x)
  | .add a b => (a.vec I C E env).bind fun u => (b.vec I C E env).bind fun v => I.add E u v
  | .sub a b => (a.vec I C E env).bind fun u => (b.vec I C E env).bind fun v => I.sub E u v
  | .mul a b => (a.vec I C E env).bind fun u => (b.vec I C E env).bind fun v => I.mul E u v
  | .div a b => (a.vec I C E env).bind fun u => (b.vec I C E env).bind fun v => I.div E u v
  | .sqrt a => (a.vec I C E env).bind fun u => I.sqrt E u
  | .sel r a b x y => C.bind fun C => (a.vec I (some C) E env).bind fun u => (b.vec I (some C) E env).bind fun v =>
      (C.rel E r u v).bind fun m => (x.vec I (some C) E env).bind fun s => (y.vec I (some C) E env).bind fun t => some (C.blendFn E s t m)

/-- The variables which occur. -/
def Expr.vars {w : Nat} : Expr w → List Nat
  | .var k => [k]
  | .const _ => []
  | .add a b | .sub a b | .mul a b | .div a b => a.vars ++ b.vars
  | .sqrt a => a.vars
  | .sel _ a b x y => a.vars ++ (b.vars ++ (x.vars ++ y.vars))

/-- There is no operation for which the predicate does not hold: division, square root, selection. -/
def Expr.only {w : Nat} (d s c : Bool) : Expr w → Bool
  | .var _ => true
  | .const _ => true
  | .add a b | .sub a b | .mul a b => a.only d s c && b.only d s c
  | .div a b => d && (a.only d s c && b.only d s c)
  | .sqrt a => s && a.only d s c
  | .sel _ a b x y => c && (a.only d s c && (b.only d s c && (x.only d s c && y.only d s c)))

/-- Operations of an implementation are those of the scalar type. -/
structure Faithful {w : Nat} (I : Impl w) (C : Option (Cmp I)) (E : FEnv) (F : FOps w) (d s c : Bool) : Prop where
  bcast : ∀ x, ∀ i < I.N, lane I (I.bcast E x) i = x
  add : LaneWise I (I.add E) F.add
  sub : LaneWise I (I.sub E) F.sub
  mul : LaneWise I (I.mul E) F.mul
  div : d = true → LaneWise I (I.div E) F.div
  sqrt : s = true → LaneWise1 I (I.sqrt E) F.sqrt
  sel : c = true → ∃ D, C = some D ∧ ∀ r a b, ∃ m, D.rel E r a b = some m ∧ ∀ x y, ∀ i < I.N,
    lane I (D.blendFn E x y m) i = if F.rel r (lane I a i) (lane I b i) then lane I y i else lane I x i

/-- The code yields for each lane what it yields for scalars. -/
theorem Faithful.vec {w : Nat} {I : Impl w} {C : Option (Cmp I)} {E : FEnv} {F : FOps w} {d s c : Bool} (H : Faithful I C E F d s c)
    (env : Nat → Option I.V) (val : Nat → Nat → BitVec w) : ∀ e : Expr w, e.only d s c = true →
      (∀ k ∈ e.vars, ∃ v, env k = some v ∧ ∀ i < I.N, lane I v i = val i k) →
      ∃ v, e.vec I C E env = some v ∧ ∀ i < I.N, lane I v i = e.scalar F (val i) := by
  have bin : ∀ (f : I.V → I.V → Option I.V) (g : BitVec w → BitVec w → BitVec w), LaneWise I f g → ∀ (a b : Expr w),
      (∃ v, a.vec I C E env = some v ∧ ∀ i < I.N, lane I v i = a.scalar F (val i)) →
      (∃ v, b.vec I C E env = some v ∧ ∀ i < I.N, lane I v i = b.scalar F (val i)) →
      ∃ v, ((a.vec I C E env).bind fun u => (b.vec I C E env).bind fun v => f u v) = some v ∧
        ∀ i < I.N, lane I v i = g (a.scalar F (val i)) (b.scalar F (val i)) := by
    rintro f g h a b ⟨u, h1, h2⟩ ⟨v, h3, h4⟩
    obtain ⟨r, h5, h6⟩ := h u v
    exact ⟨r, by rw [h1, h3]; exact h5, fun i hi => by rw [h6 i hi, h2 i hi, h4 i hi]⟩
  intro e
  induction e with
  | var k => exact fun _ h => h k (List.mem_singleton.2 rfl)
  | const x => exact fun _ _ => ⟨_, rfl, fun i hi => H.bcast x i hi⟩
  | add a b iha ihb =>
    intro ho hv
    simp only [Expr.only, Bool.and_eq_true] at ho
    exact bin _ _ H.add a b (iha ho.1 fun k hk => hv k (List.mem_append_left _ hk)) (ihb ho.2 fun k hk => hv k (List.mem_append_right _ hk))
  | sub a b iha ihb =>
    intro ho hv
    simp only [Expr.only, Bool.and_eq_true] at ho
    exact bin _ _ H.sub a b (iha ho.1 fun k hk => hv k (List.mem_append_left _ hk)) (ihb ho.2 fun k hk => hv k (List.mem_append_right _ hk))
  | mul a b iha ihb =>
    intro ho hv
    simp only [Expr.only, Bool.and_eq_true] at ho
    exact bin _ _ H.mul a b (iha ho.1 fun k hk => hv k (List.mem_append_left _ hk)) (ihb ho.2 fun k hk => hv k (List.mem_append_right _ hk))
  | div a b iha ihb =>
    intro ho hv
    simp only [Expr.only, Bool.and_eq_true] at ho
    exact bin _ _ (H.div ho.1) a b (iha ho.2.1 fun k hk => hv k (List.mem_append_left _ hk))
      (ihb ho.2.2 fun k hk => hv k (List.mem_append_right _ hk))
  | sqrt a iha =>
    intro ho hv
    simp only [Expr.only, Bool.and_eq_true] at ho
    obtain ⟨u, h1, h2⟩ := iha ho.2 hv
    obtain ⟨r, h3, h4⟩ := H.sqrt ho.1 u
    exact ⟨r, by simp only [Expr.vec, h1]; exact h3, fun i hi => by rw [h4 i hi, h2 i hi]; rfl⟩
  | sel r a b x y iha ihb ihx ihy =>
    intro ho hv
    simp only [Expr.only, Bool.and_eq_true] at ho
    obtain ⟨hc, ha, hb, hx, hy⟩ := ho
    obtain ⟨D, rfl, hD⟩ := H.sel hc
    simp only [Expr.vars, List.mem_append] at hv
    obtain ⟨u, e1, e2⟩ := iha ha fun k hk => hv k (Or.inl hk)
    obtain ⟨v, e3, e4⟩ := ihb hb fun k hk => hv k (Or.inr (Or.inl hk))
    obtain ⟨s, e5, e6⟩ := ihx hx fun k hk => hv k (Or.inr (Or.inr (Or.inl hk)))
    obtain ⟨t, e7, e8⟩ := ihy hy fun k hk => hv k (Or.inr (Or.inr (Or.inr hk)))
    obtain ⟨m, e9, e10⟩ := hD r u v
    refine ⟨D.blendFn E s t m, ?_, fun i hi => ?_⟩
    · simp only [Expr.vec, Option.bind, e1, e3, e5, e7, e9]
    · rw [e10 s t i hi, e2 i hi, e4 i hi, e6 i hi, e8 i hi]; rfl

theorem float_faithful (c : Cfg) (e : Entry 32) (he : e ∈ floatVecs c) (E : FEnv) :
    Faithful e.impl e.cmp E E.f32 (exactDiv c e.impl.N) (!usesNeon c e.impl.N) e.cmp.isSome := by
  obtain ⟨h1, h2, h3, _⟩ := C44_float c e he E
  refine ⟨fun x i hi => bcast_lane ((float_arith c e he).bcast E) x i hi, h1, h2, h3, fun hd => ?_, fun hs => ?_, fun hC => ?_⟩
  · have := (C44_float_div c e he E).1
    simpa only [hd, if_true] using this
  · exact C44_float_sqrt c e he E (by simpa using hs)
  · obtain ⟨C, hC⟩ := Option.isSome_iff_exists.1 hC
    refine ⟨C, hC, fun r a b => ?_⟩
    obtain ⟨m, h4, h5⟩ := C45_float c e he C hC E r a b
    exact ⟨m, h4, fun x y i hi => (h5 x y i hi).2⟩

theorem double_faithful (c : Cfg) (e : Entry 64) (he : e ∈ doubleVecs c) (E : FEnv) :
    Faithful e.impl e.cmp E E.f64 (!decide (c = .qpx ∧ 2 < e.impl.N)) (!decide (c = .qpx ∧ 2 < e.impl.N)) e.cmp.isSome := by
  obtain ⟨h1, h2, h3, _⟩ := C44_double_partial c e he E
  refine ⟨fun x i hi => bcast_lane ((double_arith c e he).bcast E) x i hi, h1, h2, h3, fun hd => ?_, fun hs => ?_, fun hC => ?_⟩
  · have := (C44_double_div c e he E).1
    simp only [Bool.not_eq_true', decide_eq_false_iff_not] at hd
    simpa only [if_neg hd] using this
  · have := C44_double_sqrt c e he E
    simp only [Bool.not_eq_true', decide_eq_false_iff_not] at hs
    simpa only [if_neg hs] using this
  · obtain ⟨C, hC⟩ := Option.isSome_iff_exists.1 hC
    refine ⟨C, hC, fun r a b => ?_⟩
    obtain ⟨m, h4, h5⟩ := C45_double c e he C hC E r a b
    exact ⟨m, h4, fun x y i hi => (h5 x y i hi).2⟩

/-- C56: the code of a kernel yields for each lane of `short_vec<float, ARITY>` what it yields for scalars. Missing: divisions and square
    roots which the target approximates, comparisons where there are none. -/
theorem C56_float_partial (c : Cfg) (e : Entry 32) (he : e ∈ floatVecs c) (E : FEnv) (k : Expr 32)
    (hk : k.only (exactDiv c e.impl.N) (!usesNeon c e.impl.N) (hasFloatCmp c e.impl.N) = true) (env : Nat → e.impl.V) :
    ∃ v, k.vec e.impl e.cmp E (fun i => some (env i)) = some v ∧
      ∀ i < e.impl.N, lane e.impl v i = k.scalar E.f32 fun j => lane e.impl (env j) i := by
  rw [← C45_float_available c e he] at hk
  exact (float_faithful c e he E).vec _ (fun i j => lane e.impl (env j) i) k hk fun j _ => ⟨_, rfl, fun _ _ => rfl⟩

/-- C56 for `double`. Missing: divisions and square roots on QPX, comparisons where there are none. -/
theorem C56_double_partial (c : Cfg) (e : Entry 64) (he : e ∈ doubleVecs c) (E : FEnv) (k : Expr 64)
    (hk : k.only (!decide (c = .qpx ∧ 2 < e.impl.N)) (!decide (c = .qpx ∧ 2 < e.impl.N)) (hasDoubleCmp c e.impl.N) = true)
    (env : Nat → e.impl.V) :
    ∃ v, k.vec e.impl e.cmp E (fun i => some (env i)) = some v ∧
      ∀ i < e.impl.N, lane e.impl v i = k.scalar E.f64 fun j => lane e.impl (env j) i := by
  rw [← C45_double_available c e he] at hk
  exact (double_faithful c e he E).vec _ (fun i j => lane e.impl (env j) i) k hk fun j _ => ⟨_, rfl, fun _ _ => rfl⟩

/-! ### Loops -/

/-- The body of a loop: `dst[x] = k(src[0][x], src[1][x], …)`, for `N` elements at once. `al`: with aligned accesses. -/
def body {w : Nat} (e : Entry w) (E : FEnv) (al : Bool) (k : Expr w) (src : Nat → Int) (dst x : Int) (m : Mem w) : Option (Mem w) :=
  let env j := if al then e.impl.loadA E m (e.impl.bcast E 0) (src j + x) else e.impl.ofPtr E m (src j + x)
  (k.vec e.impl e.cmp E env).bind fun v =>
    ((if al then e.impl.storeA E v (dst + x) else e.impl.shl E v (dst + x)) : Option (Writes w)).bind fun ws => applyW m ws

/-- All calls of the body, scalar ones use `short_vec<T, 1>`. -/
def runBody {w : Nat} (e1 e : Entry w) (E : FEnv) (al : Bool) (k : Expr w) (src : Nat → Int) (dst : Int) :
    List (Nat × Int) → Mem w → Option (Mem w)
  | [], m => some m
  | (a, x) :: cs, m => (body (if a = e.impl.N then e else e1) E al k src dst x m).bind (runBody e1 e E al k src dst cs)

/-- Alignment demanded by the accesses. -/
def need (R : Reqs) (al : Bool) : Nat := if al then R.aligned else R.any

/-- One call of the body. -/
theorem body_ok {w : Nat} {e : Entry w} {E : FEnv} {F : FOps w} {R : Reqs} {d s c : Bool} (H : Faithful e.impl e.cmp E F d s c)
    (T : Transfers e.impl R E) (al : Bool) (k : Expr w) (hk : k.only d s c = true) (src : Nat → Int) (dst x : Int) (m : Mem w)
    (hs : ∀ j ∈ k.vars, (need R al : Int) ∣ (src j + x) * (w / 8 : Nat) ∧ Accessible m (src j + x) e.impl.N)
    (hd : (need R al : Int) ∣ (dst + x) * (w / 8 : Nat) ∧ Accessible m (dst + x) e.impl.N) :
    ∃ m', body e E al k src dst x m = some m' ∧
      (∀ i < e.impl.N, m' (dst + x + (i : Nat)) = some (k.scalar F fun j => (m (src j + x + (i : Nat))).getD 0)) ∧
      ∀ a, (∀ i < e.impl.N, a ≠ dst + x + (i : Nat)) → m' a = m a := by
  unfold body
  have hv : ∀ j ∈ k.vars, ∃ v, (if al then e.impl.loadA E m (e.impl.bcast E 0) (src j + x) else e.impl.ofPtr E m (src j + x)) = some v ∧
      ∀ i < e.impl.N, lane e.impl v i = (m (src j + x + (i : Nat))).getD 0 := by
    intro j hj
    cases al with
    | true =>
      obtain ⟨v, h1, h2⟩ := T.load_aligned (e.impl.bcast E 0) m (src j + x) (hs j hj).1 (hs j hj).2
      exact ⟨v, h1, fun i hi => by rw [h2 i hi]; rfl⟩
    | false =>
      obtain ⟨v, h1, h2⟩ := T.pointer m (src j + x) (hs j hj).1 (hs j hj).2
      exact ⟨v, h1, fun i hi => by rw [h2 i hi]; rfl⟩
  obtain ⟨v, h1, h2⟩ := H.vec _ (fun i j => (m (src j + x + (i : Nat))).getD 0) k hk hv
  have hw : ∃ ws m', (if al then e.impl.storeA E v (dst + x) else e.impl.shl E v (dst + x)) = some ws ∧ applyW m ws = some m' ∧
      (∀ i < e.impl.N, m' (dst + x + (i : Nat)) = some (lane e.impl v i)) ∧ ∀ a, (∀ i < e.impl.N, a ≠ dst + x + (i : Nat)) → m' a = m a := by
    cases al with
    | true => exact T.store_aligned m v (dst + x) hd.1 hd.2
    | false => exact T.shift m v (dst + x) hd.1 hd.2
  obtain ⟨ws, m', h3, h4, h5, h6⟩ := hw
  refine ⟨m', ?_, fun i hi => by rw [h5 i hi, h2 i hi], h6⟩
  dsimp only
  rw [h1, Option.bind_some, h3, Option.bind_some, h4]

/-- The arrays do not overlap, or the elements are read before they are written. -/
def NoHazard {w : Nat} (k : Expr w) (src : Nat → Int) (dst : Int) (n : Nat) : Prop :=
  ∀ j ∈ k.vars, dst ≤ src j ∨ ∀ i < n, ∀ i' < n, src j + (i : Nat) ≠ dst + (i' : Nat)

theorem iota_split {x y : Int} {n a : Nat} {rest : List Int} (ha : 0 < a) (h : Peel.iota y a ++ rest = Peel.iota x n) :
    y = x ∧ ∃ n', n = a + n' ∧ rest = Peel.iota (x + (a : Nat)) n' := by
  have hl := congrArg List.length h
  simp only [List.length_append, Peel.iota, List.length_map, List.length_range] at hl
  obtain ⟨n', rfl⟩ : ∃ n', n = a + n' := ⟨n - a, by omega⟩
  rw [Peel.iota_add] at h
  have h2 := List.append_inj h (by simp [Peel.iota])
  refine ⟨?_, n', rfl, h2.2⟩
  have := congrArg List.head? h2.1
  obtain ⟨b, rfl⟩ : ∃ b, a = b + 1 := ⟨a - 1, by omega⟩
  simpa [Peel.iota, List.range_succ_eq_map] using this

theorem Expr.scalar_congr {w : Nat} (F : FOps w) {f g : Nat → BitVec w} : ∀ e : Expr w, (∀ k ∈ e.vars, f k = g k) →
    e.scalar F f = e.scalar F g
  | .var k, h => h k (List.mem_singleton.2 rfl)
  | .const _, _ => rfl
  | .add a b, h | .sub a b, h | .mul a b, h | .div a b, h => by
    simp only [Expr.vars, List.mem_append] at h
    simp only [Expr.scalar, scalar_congr F a fun k hk => h k (Or.inl hk), scalar_congr F b fun k hk => h k (Or.inr hk)]
  | .sqrt a, h => by simp only [Expr.scalar, scalar_congr F a h]
  | .sel r a b x y, h => by
    simp only [Expr.vars, List.mem_append] at h
    simp only [Expr.scalar, scalar_congr F a fun k hk => h k (Or.inl hk), scalar_congr F b fun k hk => h k (Or.inr (Or.inl hk)),
      scalar_congr F x fun k hk => h k (Or.inr (Or.inr (Or.inl hk))), scalar_congr F y fun k hk => h k (Or.inr (Or.inr (Or.inr hk)))]

/-- All calls of the body. -/
theorem runBody_ok {w : Nat} {e1 e : Entry w} {E : FEnv} {F : FOps w} {R1 R : Reqs} {d s c : Bool}
    (H1 : Faithful e1.impl e1.cmp E F d s c) (H : Faithful e.impl e.cmp E F d s c) (T1 : Transfers e1.impl R1 E) (T : Transfers e.impl R E)
    (al : Bool) (h1 : e1.impl.N = 1) (hN : 0 < e.impl.N) (hn1 : need R1 al = 1) (hn : need R al ∣ e.impl.N * (w / 8))
    (k : Expr w) (hk : k.only d s c = true) (src : Nat → Int) (dst : Int)
    (hs : ∀ j ∈ k.vars, (need R al : Int) ∣ src j * (w / 8 : Nat)) (hd : (need R al : Int) ∣ dst * (w / 8 : Nat)) :
    ∀ (cs : List (Nat × Int)) (x : Int) (n : Nat) (m : Mem w), (∀ q ∈ cs, (q.1 = 1 ∨ q.1 = e.impl.N) ∧ (q.1 = e.impl.N → (e.impl.N : Int) ∣ q.2)) →
      Peel.visits cs = Peel.iota x n → NoHazard k src dst n → (∀ j ∈ k.vars, Accessible m (src j + x) n) → Accessible m (dst + x) n →
      ∃ m', runBody e1 e E al k src dst cs m = some m' ∧
        (∀ i < n, m' (dst + x + (i : Nat)) = some (k.scalar F fun j => (m (src j + x + (i : Nat))).getD 0)) ∧
        ∀ a, (∀ i < n, a ≠ dst + x + (i : Nat)) → m' a = m a
  | [], x, n, m, _, hv, _, _, _ => by
    have : n = 0 := by
      have := congrArg List.length hv
      simpa [Peel.visits, Peel.iota] using this.symm
    subst this
    exact ⟨m, rfl, fun i hi => absurd hi (Nat.not_lt_zero i), fun _ _ => rfl⟩
  | (a, y) :: cs, x, n, m, hc, hv, hh, hms, hmd => by
    have hc0 := hc (a, y) List.mem_cons_self
    have ha : 0 < a := by rcases hc0.1 with h | h <;> simp only at h <;> omega
    rw [show Peel.visits ((a, y) :: cs) = Peel.iota y a ++ Peel.visits cs from rfl] at hv
    obtain ⟨rfl, n', rfl, hv'⟩ := iota_split ha hv
    have hb : ∃ m1, body (if a = e.impl.N then e else e1) E al k src dst y m = some m1 ∧
        (∀ i < a, m1 (dst + y + (i : Nat)) = some (k.scalar F fun j => (m (src j + y + (i : Nat))).getD 0)) ∧
        ∀ b, (∀ i < a, b ≠ dst + y + (i : Nat)) → m1 b = m b := by
      by_cases hA : a = e.impl.N
      · subst hA
        rw [if_pos rfl]
        have hy : (need R al : Int) ∣ y * (w / 8 : Nat) := by
          obtain ⟨q, hq⟩ := hc0.2 rfl
          obtain ⟨r, hr⟩ := hn
          simp only at hq
          refine ⟨r * q, ?_⟩
          rw [hq, Int.mul_right_comm, ← Int.natCast_mul, hr, Int.natCast_mul, Int.mul_assoc]
        refine body_ok H T al k hk src dst y m (fun j hj => ⟨?_, fun i hi => hms j hj i (by omega)⟩) ⟨?_, fun i hi => hmd i (by omega)⟩
        · rw [Int.add_mul]; exact Int.dvd_add (hs j hj) hy
        · rw [Int.add_mul]; exact Int.dvd_add hd hy
      · rw [if_neg hA]
        have ha1 : a = e1.impl.N := by rcases hc0.1 with h | h <;> simp only at h <;> omega
        rw [ha1]
        have hone : ∀ z : Int, (need R1 al : Int) ∣ z := fun z => by rw [hn1]; exact Int.one_dvd z
        exact body_ok H1 T1 al k hk src dst y m (fun j hj => ⟨hone _, fun i hi => hms j hj i (by omega)⟩)
          ⟨hone _, fun i hi => hmd i (by omega)⟩
    obtain ⟨m1, e1', e2, e3⟩ := hb
    have acc : ∀ b, (m b).isSome → (m1 b).isSome := by
      intro b hb
      by_cases hx : ∃ i < a, b = dst + y + (i : Nat)
      · obtain ⟨i, hi, rfl⟩ := hx
        rw [e2 i hi]; rfl
      · rw [e3 b fun i hi he => hx ⟨i, hi, he⟩]; exact hb
    have shift : ∀ (z : Int) (i : Nat), z + (y + (a : Nat)) + (i : Nat) = z + y + ((a + i : Nat) : Int) := fun z i => by omega
    obtain ⟨m', f1, f2, f3⟩ := runBody_ok H1 H T1 T al h1 hN hn1 hn k hk src dst hs hd cs (y + (a : Nat)) n' m1
      (fun q hq => hc q (List.mem_cons_of_mem _ hq)) hv'
      (fun j hj => (hh j hj).imp id fun h i hi i' hi' => h i (by omega) i' (by omega))
      (fun j hj i hi => by rw [shift]; exact acc _ (hms j hj (a + i) (by omega)))
      (fun i hi => by rw [shift]; exact acc _ (hmd (a + i) (by omega)))
    refine ⟨m', ?_, fun i hi => ?_, fun b hb => ?_⟩
    · rw [runBody, e1', Option.bind_some, f1]
    · by_cases hi' : i < a
      · rw [f3 _ fun i'' hi'' => by rw [shift]; omega]
        exact e2 i hi'
      · obtain ⟨i', rfl⟩ : ∃ i', i = a + i' := ⟨i - a, by omega⟩
        rw [← shift, f2 i' (by omega)]
        congr 1
        refine Expr.scalar_congr F k fun j hj => ?_
        rw [shift, e3]
        intro i hi'' he
        rcases hh j hj with h | h
        · omega
        · exact h (a + i') (by omega) i (by omega) (by omega)
    · rw [f3 b fun i hi => by rw [shift]; exact hb _ (by omega)]
      exact e3 b fun i hi => hb i (by omega)

/-- What C56 demands of a loop: the function (macro) for peeling runs the body so that afterwards each element of the range has the value
    which the scalar code yields for it, all other elements keep their values. The same memory results from a loop over scalars. -/
def LoopOk {w : Nat} (t : Peel.CTy) (e1 e : Entry w) (E : FEnv) (F : FOps w) (al : Bool) (k : Expr w) (src : Nat → Int) (dst x stop : Int)
    (m : Mem w) : Prop :=
  ∃ calls m', Peel.peel t e.impl.N x stop = some (calls, stop) ∧ runBody e1 e E al k src dst calls m = some m' ∧
    (∀ i, x ≤ i → i < stop → m' (dst + i) = some (k.scalar F fun j => (m (src j + i)).getD 0)) ∧
    (∀ a, (∀ i, x ≤ i → i < stop → a ≠ dst + i) → m' a = m a) ∧
    runBody e1 e1 E al k src dst ((List.range (stop - x).toNat).map fun i => (1, x + (i : Nat))) m = some m'

theorem loop_ok {w : Nat} {e1 e : Entry w} {E : FEnv} {F : FOps w} {R1 R : Reqs} {d s c : Bool}
    (H1 : Faithful e1.impl e1.cmp E F d s c) (H : Faithful e.impl e.cmp E F d s c) (T1 : Transfers e1.impl R1 E) (T : Transfers e.impl R E)
    (al : Bool) (h1 : e1.impl.N = 1) (hN : 0 < e.impl.N) (hn1 : need R1 al = 1) (hn : need R al ∣ e.impl.N * (w / 8))
    (k : Expr w) (hk : k.only d s c = true) (src : Nat → Int) (dst : Int)
    (hs : ∀ j ∈ k.vars, (need R al : Int) ∣ src j * (w / 8 : Nat)) (hd : (need R al : Int) ∣ dst * (w / 8 : Nat))
    (t : Peel.CTy) (ht : (e.impl.N : Int) ∣ t.hi) (x stop : Int) (hx : 0 ≤ x) (hstop : stop < t.hi)
    (q : Int) (hq : x ≤ e.impl.N * q) (hq' : e.impl.N * q ≤ stop) (m : Mem w) (hh : NoHazard k src dst (stop - x).toNat)
    (hms : ∀ j ∈ k.vars, Accessible m (src j + x) (stop - x).toNat) (hmd : Accessible m (dst + x) (stop - x).toNat) :
    LoopOk t e1 e E F al k src dst x stop m := by
  obtain ⟨calls, hp, hv, hc, _⟩ := C37_partial t e.impl.N hN ht x stop hx hstop q hq hq'
  obtain ⟨m', f1, f2, f3⟩ := runBody_ok H1 H T1 T al h1 hN hn1 hn k hk src dst hs hd calls x _ m hc hv hh hms hmd
  have hone : ∀ z : Int, (need R1 al : Int) ∣ z := fun z => by rw [hn1]; exact Int.one_dvd z
  have hv1 : Peel.visits ((List.range (stop - x).toNat).map fun i => (1, x + (i : Nat))) = Peel.iota x (stop - x).toNat := by
    have := Peel.visits_loop 1 (stop - x).toNat x
    simpa only [Nat.mul_one] using this
  obtain ⟨m'', g1, g2, g3⟩ := runBody_ok H1 H1 T1 T1 al h1 (by omega) hn1 (by rw [hn1]; exact Nat.one_dvd _) k hk src dst (fun j _ => hone _)
    (hone _) ((List.range (stop - x).toNat).map fun i => (1, x + (i : Nat))) x _ m
    (fun p hp => by
      obtain ⟨i, _, rfl⟩ := List.mem_map.1 hp
      rw [h1]
      exact ⟨Or.inl rfl, fun _ => Int.one_dvd _⟩) hv1 hh hms hmd
  have : m'' = m' := by
    funext a
    by_cases ha : ∃ i < (stop - x).toNat, a = dst + x + (i : Nat)
    · obtain ⟨i, hi, rfl⟩ := ha
      rw [f2 i hi, g2 i hi]
    · rw [f3 a fun i hi he => ha ⟨i, hi, he⟩, g3 a fun i hi he => ha ⟨i, hi, he⟩]
  refine ⟨calls, m', hp, f1, fun i hi hi' => ?_, fun a ha => f3 a fun i hi => ?_, this ▸ g1⟩
  · obtain ⟨n, rfl⟩ : ∃ n : Nat, i = x + n := ⟨(i - x).toNat, by omega⟩
    have := f2 n (by omega)
    simpa only [Int.add_assoc] using this
  · have := ha (x + (i : Nat)) (by omega) (by omega)
    rwa [← Int.add_assoc] at this

theorem Faithful.weaken {w : Nat} {I : Impl w} {C : Option (Cmp I)} {E : FEnv} {F : FOps w} {d s c d' s' c' : Bool}
    (H : Faithful I C E F d s c) (hd : d' = true → d = true) (hs : s' = true → s = true) (hc : c' = true → c = true) :
    Faithful I C E F d' s' c' :=
  ⟨H.bcast, H.add, H.sub, H.mul, fun h => H.div (hd h), fun h => H.sqrt (hs h), fun h => H.sel (hc h)⟩

/-- C56: loops over `float`s, with and without aligned accesses. The addresses of the arrays have to be aligned as the accesses demand
    (see C55); the counter starts at any non-negative value. Missing: see C56_float_partial and C37_partial. -/
theorem C56_float_loop_partial (c : Cfg) (e1 e : Entry 32) (he1 : e1 ∈ floatVecs c) (h1 : e1.impl.N = 1) (he : e ∈ floatVecs c) (E : FEnv)
    (al : Bool) (k : Expr 32) (hk : k.only (exactDiv c e.impl.N) (!usesNeon c e.impl.N) (hasFloatCmp c e.impl.N) = true)
    (src : Nat → Int) (dst : Int) (hs : ∀ j ∈ k.vars, (need (floatReqs c e.impl.N) al : Int) ∣ src j * 4)
    (hd : (need (floatReqs c e.impl.N) al : Int) ∣ dst * 4)
    (t : Peel.CTy) (ht : (e.impl.N : Int) ∣ t.hi) (x stop : Int) (hx : 0 ≤ x) (hstop : stop < t.hi)
    (q : Int) (hq : x ≤ e.impl.N * q) (hq' : e.impl.N * q ≤ stop) (m : Mem 32) (hh : NoHazard k src dst (stop - x).toNat)
    (hms : ∀ j ∈ k.vars, Accessible m (src j + x) (stop - x).toNat) (hmd : Accessible m (dst + x) (stop - x).toNat) :
    LoopOk t e1 e E E.f32 al k src dst x stop m := by
  have hN := float_arity c e he
  have H := float_faithful c e he E
  rw [C45_float_available c e he] at H
  have H1 := float_faithful c e1 he1 E
  rw [C45_float_available c e1 he1] at H1
  refine loop_ok (H1.weaken ?_ ?_ ?_) H (C46_float_partial c e1 he1 E) (C46_float_partial c e he E) al h1 ?_ ?_ ?_ k hk src dst hs hd t ht x stop
    hx hstop q hq hq' m hh hms hmd
  · rw [h1]; intro _; rfl
  · rw [h1]; intro _; simp only [usesNeon]; rfl
  · rw [h1]; intro _; cases c <;> rfl
  · have : ∀ n ∈ [1, 2, 4, 8, 16, 32], 0 < n := by decide
    exact this _ hN
  · rw [h1]; cases al <;> rfl
  · have : ∀ n ∈ [1, 2, 4, 8, 16, 32], need (floatReqs c n) al ∣ n * 4 := by cases c <;> cases al <;> decide
    exact this _ hN

/-- C56: loops over `double`s. On QPX, addresses have to be aligned even for ordinary accesses. -/
theorem C56_double_loop_partial (c : Cfg) (e1 e : Entry 64) (he1 : e1 ∈ doubleVecs c) (h1 : e1.impl.N = 1) (he : e ∈ doubleVecs c) (E : FEnv)
    (al : Bool) (k : Expr 64) (hk : k.only (!decide (c = .qpx ∧ 2 < e.impl.N)) (!decide (c = .qpx ∧ 2 < e.impl.N))
      (hasDoubleCmp c e.impl.N) = true)
    (src : Nat → Int) (dst : Int) (hs : ∀ j ∈ k.vars, (need (doubleReqs c e.impl.N) al : Int) ∣ src j * 8)
    (hd : (need (doubleReqs c e.impl.N) al : Int) ∣ dst * 8)
    (t : Peel.CTy) (ht : (e.impl.N : Int) ∣ t.hi) (x stop : Int) (hx : 0 ≤ x) (hstop : stop < t.hi)
    (q : Int) (hq : x ≤ e.impl.N * q) (hq' : e.impl.N * q ≤ stop) (m : Mem 64) (hh : NoHazard k src dst (stop - x).toNat)
    (hms : ∀ j ∈ k.vars, Accessible m (src j + x) (stop - x).toNat) (hmd : Accessible m (dst + x) (stop - x).toNat) :
    LoopOk t e1 e E E.f64 al k src dst x stop m := by
  have hN := double_arity c e he
  have H := double_faithful c e he E
  rw [C45_double_available c e he] at H
  have H1 := double_faithful c e1 he1 E
  rw [C45_double_available c e1 he1] at H1
  refine loop_ok (H1.weaken ?_ ?_ ?_) H (C46_double_partial c e1 he1 E) (C46_double_partial c e he E) al h1 ?_ ?_ ?_ k hk src dst hs hd t ht
    x stop hx hstop q hq hq' m hh hms hmd
  · rw [h1]; intro _; simp
  · rw [h1]; intro _; simp
  · rw [h1]; intro _; cases c <;> rfl
  · have : ∀ n ∈ [1, 2, 4, 8, 16, 32], 0 < n := by decide
    exact this _ hN
  · rw [h1]; cases c <;> cases al <;> rfl
  · have : ∀ n ∈ [1, 2, 4, 8, 16, 32], need (doubleReqs c n) al ∣ n * 8 := by cases c <;> cases al <;> decide
    exact this _ hN

/-- C56 is false for divisions of `float`s where the target multiplies by an approximate reciprocal: the results of the calls with
    `short_vec<float, 1>` and with longer vectors are not the same, so an element depends on the position of the loop's bounds. -/
theorem C56_false_div (c : Cfg) (e1 e : Entry 32) (he1 : e1 ∈ floatVecs c) (h1 : e1.impl.N = 1) (he : e ∈ floatVecs c) (E : FEnv)
    (hd : exactDiv c e.impl.N = false) (hN : 0 < e.impl.N) (x y : BitVec 32) (h : E.f32.mul x (reciprocal c e.impl.N E.f32 y) ≠ E.f32.div x y) :
    ∃ v v1, (Expr.div (.const x) (.const y)).vec e.impl e.cmp E (fun _ => none) = some v ∧
      (Expr.div (.const x) (.const y)).vec e1.impl e1.cmp E (fun _ => none) = some v1 ∧ lane e.impl v 0 ≠ lane e1.impl v1 0 := by
  obtain ⟨v, g1, g2⟩ := (C44_float_div c e he E).1 (e.impl.bcast E x) (e.impl.bcast E y)
  obtain ⟨v1, g3, g4⟩ := (C44_float_div c e1 he1 E).1 (e1.impl.bcast E x) (e1.impl.bcast E y)
  refine ⟨v, v1, g1, g3, ?_⟩
  have g2 := g2 0 hN
  have g4 := g4 0 (by omega)
  rw [bcast_lane ((float_arith c e he).bcast E) x 0 hN, bcast_lane ((float_arith c e he).bcast E) y 0 hN, hd] at g2
  rw [bcast_lane ((float_arith c e1 he1).bcast E) x 0 (by omega), bcast_lane ((float_arith c e1 he1).bcast E) y 0 (by omega), h1,
    show exactDiv c 1 = true from rfl] at g4
  rw [g2, g4]
  exact h

/-- The hypotheses can be met: `a[i] = a[i + 1] * b[i] + 1` for i = 3, …, 99 on AVX, with vectors of 8 `float`s. -/
example (m : Mem 32) (hm : ∀ i, (m i).isSome) (e1 e : Entry 32) (he1 : e1 ∈ floatVecs .avx) (h1 : e1.impl.N = 1) (he : e ∈ floatVecs .avx)
    (h8 : e.impl.N = 8) (one : BitVec 32) :
    LoopOk (.signed 32) e1 e FEnv.demo FEnv.demo.f32 false (.add (.mul (.var 0) (.var 1)) (.const one))
      (fun j => if j = 0 then 1001 else 2000) 1000 3 100 m := by
  refine C56_float_loop_partial .avx e1 e he1 h1 he FEnv.demo false _ ?_ _ 1000 (fun j hj => ?_) ?_ (.signed 32) ?_ 3 100 (by decide) (by decide)
    1 ?_ ?_ m (fun j hj => ?_) (fun j hj i hi => hm _) (fun i hi => hm _)
  · rw [h8]; rfl
  · rw [h8]; exact Int.one_dvd _
  · rw [h8]; exact Int.one_dvd _
  · rw [h8]; decide
  · rw [h8]; decide
  · rw [h8]; decide
  · left
    split_ifs <;> decide

example : ∃ e1 ∈ floatVecs .avx, e1.impl.N = 1 ∧ ∃ e ∈ floatVecs .avx, e.impl.N = 8 :=
  ⟨_, List.mem_cons_self, rfl, _, List.mem_cons_of_mem _ (List.mem_cons_of_mem _ (List.mem_cons_of_mem _ List.mem_cons_self)), rfl⟩

end LFA.SV
