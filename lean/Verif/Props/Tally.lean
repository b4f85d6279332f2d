import Verif.Tally
import Verif.Props.AllPairs
import Verif.Props.PairKernel
import Verif.Props.SoaVector
import Verif.SV.IeeeInt

/-
  C76: a functor which counts pairs of elements of a soa_vector by vectors of floating point numbers.
-/
set_option linter.unusedSectionVars false
namespace LFA.GK
open Props (VecValid VecIs)
open SV (Expr Entry FEnv FOps Mem Writes Cmp Rel lane Faithful Transfers Reqs LaneWise Conforms Fmt)
open SV.Fmt (single)

variable {V : Type} [DecidableEq V]

/-! ### Scalar code -/

/-- `distance2 < radius2`, for two structs. -/
def Tally.hit (K : Tally) (B : Bits 32 V) (F : FOps 32) (c d : Cell V) : Bool :=
  F.rel K.rel (K.test.scalar F fun v => num B (if (K.src v).own then c else d) (K.src v).r (K.src v).k) K.thr

/-- The number of elements of `l` which interact with `c`. -/
def Tally.row (K : Tally) (B : Bits 32 V) (F : FOps 32) (l : List (Cell V)) (c : Cell V) : Nat := l.countP (K.hit B F c)

/-- Two nested scalar loops: the number of pairs. -/
def Tally.pairs (K : Tally) (B : Bits 32 V) (F : FOps 32) (l : List (Cell V)) : Nat := (l.map (K.row B F l)).sum

/-- The number of pairs which lane `p` counts: those of the elements `p`, `p + N`, `p + 2 * N`, … of full vectors. -/
def Tally.lane (K : Tally) (B : Bits 32 V) (F : FOps 32) (l : List (Cell V)) (N p : Nat) : Nat :=
  ((List.range (l.length / N)).map fun b => (l[b * N + p]?.map (K.row B F l)).getD 0).sum

/-- The number of pairs of the elements which do not fill a vector. -/
def Tally.rest (K : Tally) (B : Bits 32 V) (F : FOps 32) (l : List (Cell V)) (N : Nat) : Nat :=
  ((l.drop (l.length / N * N)).map (K.row B F l)).sum

/-- The number of pairs if no lane counts beyond 2 ^ 24. -/
def Tally.capped (K : Tally) (B : Bits 32 V) (F : FOps 32) (l : List (Cell V)) (N : Nat) : Nat :=
  ((List.range N).map fun p => min (K.lane B F l N p) (2 ^ 24)).sum + min (K.rest B F l N) (2 ^ 24)

/-- Sums are rounded to nearest. -/
def Sums (F : FOps 32) : Prop := ∀ x y, single.finite x → single.finite y → |single.val x + single.val y| ≤ single.huge →
  single.Nearest (single.val x + single.val y) (F.add x y)

/-- 2 ^ 24 + 1, which is between two numbers of single precision, is rounded to the even one. -/
def Ties (F : FOps 32) : Prop := ∀ x y, single.finite x → single.finite y → single.val x = 2 ^ 24 → single.val y = 1 →
  single.val (F.add x y) = 2 ^ 24

/-! ### Numbers -/

theorem one_val : single.finite one32 ∧ single.val one32 = 1 := by
  have h1 : single.ex one32 = 127 := by decide
  have h2 : single.man one32 = 0 := by decide
  have h3 : single.neg one32 = false := by decide
  refine ⟨?_, ?_⟩
  · unfold SV.Fmt.finite; rw [h1]; decide
  · unfold SV.Fmt.val SV.Fmt.mag
    rw [h1, h2, h3]
    simp [SV.Fmt.single, SV.Fmt.bias]

theorem zero_val : single.finite (0 : BitVec 32) ∧ single.val (0 : BitVec 32) = 0 := by
  have h1 : single.ex (0 : BitVec 32) = 0 := by decide
  have h2 : single.man (0 : BitVec 32) = 0 := by decide
  refine ⟨?_, ?_⟩
  · unfold SV.Fmt.finite; rw [h1]; decide
  · unfold SV.Fmt.val SV.Fmt.mag
    rw [h1, h2]
    simp

/-- `x` is the number `k`, or 2 ^ 24 if this is less. -/
def Num (k : Nat) (x : BitVec 32) : Prop := single.finite x ∧ single.val x = (min k (2 ^ 24) : Nat)

/-- Counting up to `k` is possible. -/
def Room (F : FOps 32) (k : Nat) : Prop := k ≤ 2 ^ 24 ∨ Ties F

theorem Room.mono {F : FOps 32} {k k' : Nat} (h : Room F k') (hk : k ≤ k') : Room F k := by
  rcases h with h | h
  · exact .inl (by omega)
  · exact .inr h

theorem Num.add {F : FOps 32} (hF : Sums F) {k : Nat} {x : BitVec 32} (h : Num k x) (b : Bool) (hr : Room F (k + b.toNat)) :
    Num (k + b.toNat) (F.add x (if b then one32 else 0)) := by
  obtain ⟨h1, h2⟩ := h
  have hh := SV.single_huge
  have near : ∀ y, single.finite y → ∀ z : Nat, z ≤ 2 ^ 24 → single.val x + single.val y = z →
      single.finite (F.add x y) ∧ single.val (F.add x y) = z := by
    intro y hy z hz e
    have hn := hF x y h1 hy (by
      rw [e, abs_of_nonneg (by positivity)]
      refine le_trans ?_ hh
      exact_mod_cast hz)
    rw [e] at hn
    obtain ⟨u, hu, eu⟩ := SV.single_int z (by omega)
    exact ⟨hn.1, hn.exact hu (by rw [eu]; push_cast; rfl)⟩
  cases b with
  | false =>
    have := near 0 zero_val.1 (min k (2 ^ 24)) (by omega) (by rw [zero_val.2, h2, add_zero])
    simpa [Num] using this
  | true =>
    by_cases hk : k < 2 ^ 24
    · have := near one32 one_val.1 (k + 1) (by omega) (by rw [one_val.2, h2, min_eq_left (by omega)]; push_cast; rfl)
      simp only [Bool.toNat_true, if_true]
      exact ⟨this.1, by rw [this.2, min_eq_left (by omega)]⟩
    · have ht : Ties F := by
        rcases hr with h | h
        · simp only [Bool.toNat_true] at h; omega
        · exact h
      have hx : single.val x = 2 ^ 24 := by rw [h2, min_eq_right (by omega)]; norm_num
      have hn := hF x one32 h1 one_val.1 (by
        rw [hx, one_val.2, abs_of_nonneg (by positivity)]
        simp only [SV.Fmt.huge, SV.Fmt.single, SV.Fmt.bias]; norm_num)
      simp only [Bool.toNat_true, if_true]
      exact ⟨hn.1, by rw [ht x one32 h1 one_val.1 hx one_val.2, min_eq_right (by omega)]; norm_num⟩

theorem Num.toInt {F : FOps 32} (hF : Conforms single F) {k : Nat} {x : BitVec 32} (h : Num k x) :
    (F.toIntT x).toInt = (min k (2 ^ 24) : Nat) := by
  obtain ⟨h1, h2⟩ := h
  refine hF.toIntT x h1 _ ?_ (.inl ⟨?_, ?_, ?_⟩)
  · exact SV.inInt_small (by rw [Int.natAbs_natCast]; exact Nat.min_le_right _ _)
  · rw [h2]; positivity
  · rw [h2]; push_cast; rfl
  · rw [h2]; push_cast; linarith

/-! ### Loads -/

/-- Members of the elements of `l` can be read through accessors. -/
def Sees (T : Env 32 V) (A : One) (h : Heap V) (l : List (Cell V)) (r k : Nat) : Prop :=
  ∃ m b, T.L[r]? = some m ∧ h.blk A.id = some b ∧ m.ty.size = 4 ∧ (4 : Int) ∣ addr T.L (T.base A.id) A.e 0 0 0 ⟨0, 0, 0, r, k⟩ m ∧
    ∀ (x : Nat) (c : Cell V), l[x]? = some c →
      b.read (off T.L A.e (x : Nat) 0 0 ⟨0, 0, 0, r, k⟩ m) m.ty = .ok (c r k) ∧ (T.B.bits (c r k)).isSome = true

theorem off_nat (L : Layout V) (e : Ext) (p : Pos) {m : Member V} (hm : m.ty.size = 4) (x : Int) :
    off L e x 0 0 p m = off L e 0 0 0 p m + x * 4 := by
  have := off_add L e 0 0 0 p m x
  rw [Int.zero_add, hm] at this
  exact this

theorem Sees.elem {T : Env 32 V} {A : One} {h : Heap V} {l : List (Cell V)} {r k : Nat} (H : Sees T A h l r k) :
    ∃ m b q, T.L[r]? = some m ∧ h.blk A.id = some b ∧
      (∀ x : Int, GK.elem (w := 32) T.L (T.base A.id) A.e x 0 0 ⟨0, 0, 0, r, k⟩ m = some (q + x)) ∧
      ∀ (x : Nat) (c : Cell V), l[x]? = some c → view T.B m.ty (T.base A.id) b (q + x) = some (num T.B c r k) := by
  obtain ⟨m, b, h1, h2, h3, ⟨q, hq⟩, h5⟩ := H
  have ho : ∀ x : Int, addr T.L (T.base A.id) A.e x 0 0 ⟨0, 0, 0, r, k⟩ m = (q + x) * 4 := by
    intro x
    have := off_nat T.L A.e ⟨0, 0, 0, r, k⟩ h3 x
    change addr T.L (T.base A.id) A.e 0 0 0 ⟨0, 0, 0, r, k⟩ m = _ at hq
    unfold addr off at *
    omega
  refine ⟨m, b, q, h1, h2, fun x => ?_, fun x c hc => ?_⟩
  · have e4 : ((32 / 8 : Nat) : Int) = 4 := rfl
    rw [GK.elem, if_pos ⟨h3, by rw [ho, e4]; exact Dvd.intro_left _ rfl⟩, ho, e4, Int.mul_ediv_cancel _ (by decide)]
  · obtain ⟨k1, k2⟩ := h5 x c hc
    have e1 : (q + x) * (32 / 8 : Nat) - T.base A.id = off T.L A.e (x : Nat) 0 0 ⟨0, 0, 0, r, k⟩ m := by
      have := ho x
      have e4 : ((32 / 8 : Nat) : Int) = 4 := rfl
      rw [e4]
      unfold addr at this
      unfold off
      omega
    unfold view
    rw [e1, k1]
    obtain ⟨v, hv⟩ := Option.isSome_iff_exists.1 k2
    simp only [hv, num, Option.getD_some]

variable {T : Env 32 V} {K : Tally} {A : One} {h : Heap V} {l : List (Cell V)}

theorem env_ok {e : Entry 32} {Q : Reqs} (hT : Transfers e.impl Q T.E) (hq : Q.any = 1)
    (hb : ∀ x, ∀ i < e.impl.N, lane e.impl (e.impl.bcast T.E x) i = x)
    {v : Nat} (hs : Sees T A h l (K.src v).r (K.src v).k) {x j : Nat} (hx : x + e.impl.N ≤ l.length) {d : Cell V} (hd : l[j]? = some d) :
    ∃ y, K.env T A e h x j v = some y ∧ ∀ i < e.impl.N, ∀ c, l[x + i]? = some c →
      lane e.impl y i = num T.B (if (K.src v).own then c else d) (K.src v).r (K.src v).k := by
  obtain ⟨m, b, q, h1, h2, h3, h4⟩ := hs.elem
  unfold Tally.env
  cases ho : (K.src v).own with
  | false =>
    have hf : fetch T A h j (K.src v).r (K.src v).k = some (num T.B d (K.src v).r (K.src v).k) := by
      unfold fetch
      simp only [h1, h2, h3, Option.bind_some]
      exact h4 j d hd
    refine ⟨e.impl.bcast T.E (num T.B d (K.src v).r (K.src v).k), by simp only [Bool.false_eq_true, if_false, hf, Option.map_some],
      fun i hi c hc => ?_⟩
    simp only [Bool.false_eq_true, if_false]
    exact hb _ i hi
  | true =>
    obtain ⟨y, k1, k2⟩ := hT.pointer (view T.B m.ty (T.base A.id) b) (q + x) (by rw [hq]; exact one_dvd _) (fun i hi => by
      have hi' : x + i < l.length := by omega
      have := h4 (x + i) _ (List.getElem?_eq_getElem hi')
      rw [Int.natCast_add, ← Int.add_assoc] at this
      rw [this]; rfl)
    refine ⟨y, ?_, fun i hi c hc => ?_⟩
    · simp only [if_true]
      unfold load
      simp only [Tally.loads, Bool.false_eq_true, if_false, One.pair, h1, h2, h3, Option.bind_some, Mode.load]
      exact k1
    · simp only [if_true]
      have := k2 i hi
      rw [Int.add_assoc, ← Int.natCast_add, h4 (x + i) c hc] at this
      exact (Option.some.inj this).symm

/-! ### Loops -/

theorem body_count {F : FOps 32} {d s c : Bool} {e : Entry 32} {Q : Reqs} (H : Faithful e.impl e.cmp T.E F d s c) (hc : c = true)
    (hA : LaneWise e.impl (e.impl.addA T.E) F.add)
    (hT : Transfers e.impl Q T.E) (hq : Q.any = 1) (ht : Tests e T.E F) (hk : K.test.only d s c = true)
    (hs : ∀ v ∈ K.test.vars, Sees T A h l (K.src v).r (K.src v).k) (hF : Sums F) {x j : Nat} (hx : x + e.impl.N ≤ l.length)
    {o : Cell V} (ho : l[j]? = some o) (sum : e.impl.V) :
    ∃ sum', K.body T A e h x j sum = some sum' ∧ ∀ i < e.impl.N, ∀ c, l[x + i]? = some c → ∀ n, Num n (lane e.impl sum i) →
      Room F (n + (K.hit T.B F c o).toNat) → Num (n + (K.hit T.B F c o).toNat) (lane e.impl sum' i) := by
  obtain ⟨t, h1, h2⟩ := H.vec (K.env T A e h x j)
    (fun i v => num T.B (if (K.src v).own then (l[x + i]?).getD o else o) (K.src v).r (K.src v).k) K.test hk (fun v hv => by
      obtain ⟨y, k1, k2⟩ := env_ok (K := K) hT hq H.bcast (hs v hv) hx ho
      refine ⟨y, k1, fun i hi => ?_⟩
      have hi' : x + i < l.length := by omega
      rw [k2 i hi _ (List.getElem?_eq_getElem hi'), List.getElem?_eq_getElem hi', Option.getD_some])
  obtain ⟨D, hD, g1⟩ := H.sel hc
  obtain ⟨D', hD', f1, -⟩ := ht
  rw [hD] at hD'
  cases hD'
  obtain ⟨m, m1, m2⟩ := g1 K.rel t (e.impl.bcast T.E K.thr)
  obtain ⟨m', m3, m4⟩ := f1 K.rel t (e.impl.bcast T.E K.thr)
  rw [m1] at m3
  cases m3
  have hhit : ∀ i < e.impl.N, ∀ c, l[x + i]? = some c →
      F.rel K.rel (lane e.impl t i) (lane e.impl (e.impl.bcast T.E K.thr) i) = K.hit T.B F c o := by
    intro i hi c hc
    rw [h2 i hi, H.bcast _ i hi, hc]
    rfl
  unfold Tally.body
  rw [h1, Option.bind_some, hD]
  simp only [m1, Option.bind_some]
  by_cases ha : D.any T.E m = true
  · rw [if_pos ha]
    obtain ⟨y, y1, y2⟩ := hA sum (D.blendFn T.E (e.impl.bcast T.E 0) (e.impl.bcast T.E one32) m)
    refine ⟨y, y1, fun i hi c hc n hn hr => ?_⟩
    rw [y2 i hi, m2 _ _ i hi, hhit i hi c hc, H.bcast _ i hi, H.bcast _ i hi]
    exact hn.add hF _ hr
  · rw [if_neg ha]
    refine ⟨sum, rfl, fun i hi c hc n hn _ => ?_⟩
    have : K.hit T.B F c o = false := by
      rw [← hhit i hi c hc]
      by_contra hne
      exact ha (m4.2 ⟨i, hi, by simpa using hne⟩)
    rw [this]
    exact hn

/-- `f(0) + ... + f(n - 1)` -/
def sumTo (f : Nat → Nat) (n : Nat) : Nat := ((List.range n).map f).sum

theorem sumTo_succ (f : Nat → Nat) (n : Nat) : sumTo f (n + 1) = sumTo f n + f n := by
  simp [sumTo, List.range_succ]

theorem sumTo_add (f : Nat → Nat) (m n : Nat) : sumTo f (m + n) = sumTo f m + sumTo (fun i => f (m + i)) n := by
  induction n with
  | zero => simp [sumTo]
  | succ n ih => rw [← Nat.add_assoc, sumTo_succ, ih, sumTo_succ, Nat.add_assoc]

theorem sumTo_plus (f g : Nat → Nat) (n : Nat) : sumTo (fun i => f i + g i) n = sumTo f n + sumTo g n := by
  induction n with
  | zero => simp [sumTo]
  | succ n ih => rw [sumTo_succ, ih, sumTo_succ, sumTo_succ]; omega

theorem sumTo_congr {f g : Nat → Nat} {n : Nat} (h : ∀ i < n, f i = g i) : sumTo f n = sumTo g n := by
  induction n with
  | zero => rfl
  | succ n ih => rw [sumTo_succ, sumTo_succ, ih fun i hi => h i (by omega), h n (by omega)]

theorem sumTo_le {f g : Nat → Nat} {n : Nat} (h : ∀ i < n, f i ≤ g i) : sumTo f n ≤ sumTo g n := by
  induction n with
  | zero => exact Nat.le_refl _
  | succ n ih =>
    have := ih fun i hi => h i (by omega)
    have := h n (by omega)
    rw [sumTo_succ, sumTo_succ]; omega

theorem sumTo_lt {f g : Nat → Nat} {n : Nat} (h : ∀ i < n, f i ≤ g i) {i : Nat} (hi : i < n) (hl : f i < g i) : sumTo f n < sumTo g n := by
  induction n with
  | zero => omega
  | succ n ih =>
    rw [sumTo_succ, sumTo_succ]
    rcases Nat.lt_or_ge i n with h1 | h1
    · have := ih (fun i hi => h i (by omega)) h1
      have := h n (by omega)
      omega
    · obtain rfl : i = n := by omega
      have := sumTo_le (f := f) (g := g) (n := i) fun j hj => h j (by omega)
      omega

/-- Blocks of `N` elements, by lanes. -/
theorem sumTo_lanes (f : Nat → Nat) (N q : Nat) : sumTo (fun p => sumTo (fun b => f (b * N + p)) q) N = sumTo f (q * N) := by
  induction q with
  | zero =>
    rw [Nat.zero_mul]
    have : ∀ n, sumTo (fun p => sumTo (fun b => f (b * N + p)) 0) n = 0 := by
      intro n
      induction n with
      | zero => rfl
      | succ n ih => rw [sumTo_succ, ih]; rfl
    rw [this]; rfl
  | succ q ih =>
    rw [Nat.succ_mul, sumTo_add, ← ih, ← sumTo_plus]
    exact sumTo_congr fun p _ => sumTo_succ _ _

theorem sumTo_list {α : Type} (g : α → Nat) (l : List α) : sumTo (fun i => (l[i]?.map g).getD 0) l.length = (l.map g).sum := by
  induction l using List.reverseRecOn with
  | nil => rfl
  | append_singleton l a ih =>
    rw [List.length_append, List.length_singleton, sumTo_succ, List.map_append, List.sum_append, ← ih]
    congr 1
    · exact sumTo_congr fun i hi => by rw [List.getElem?_append_left hi]
    · simp

theorem sumTo_drop {α : Type} (g : α → Nat) (l : List α) (k : Nat) :
    sumTo (fun i => (l[k + i]?.map g).getD 0) (l.length - k) = ((l.drop k).map g).sum := by
  rw [← sumTo_list, List.length_drop]
  exact sumTo_congr fun i _ => by rw [List.getElem?_drop]

/-- All pairs are counted by some lane, or are those of the last elements. -/
theorem lanes_pairs (K : Tally) (B : Bits 32 V) (F : FOps 32) (l : List (Cell V)) (N : Nat) :
    sumTo (K.lane B F l N) N + K.rest B F l N = K.pairs B F l := by
  have hle : l.length / N * N ≤ l.length := Nat.div_mul_le_self _ _
  have h1 : sumTo (K.lane B F l N) N = sumTo (fun i => (l[i]?.map (K.row B F l)).getD 0) (l.length / N * N) :=
    sumTo_lanes (fun i => (l[i]?.map (K.row B F l)).getD 0) N (l.length / N)
  unfold Tally.rest Tally.pairs
  rw [h1, ← sumTo_drop, ← sumTo_add, ← sumTo_list]
  congr 1
  omega

/-- What is known about the vectors of an arity. -/
structure Ready (e : Entry 32) (E : FEnv) (F : FOps 32) (K : Tally) : Prop where
  run : ∃ d s Q, Faithful e.impl e.cmp E F d s true ∧ K.test.only d s true = true ∧ Transfers e.impl Q E ∧ Q.any = 1
  addA : LaneWise e.impl (e.impl.addA E) F.add
  tests : Tests e E F

section
variable {F : FOps 32} {e : Entry 32} (hR : Ready e T.E F K) (hs : ∀ v ∈ K.test.vars, Sees T A h l (K.src v).r (K.src v).k) (hF : Sums F)
include hR hs hF

theorem inner_count {x : Nat} (hx : x + e.impl.N ≤ l.length) (sum : e.impl.V) :
    ∃ sum', K.inner T A e l.length h x sum = some sum' ∧ ∀ i < e.impl.N, ∀ c, l[x + i]? = some c → ∀ n, Num n (lane e.impl sum i) →
      Room F (n + K.row T.B F l c) → Num (n + K.row T.B F l c) (lane e.impl sum' i) := by
  have key : ∀ m ≤ l.length, ∃ sum', (List.range m).foldlM (fun s (j : Nat) => K.body T A e h x j s) sum = some sum' ∧
      ∀ i < e.impl.N, ∀ c, l[x + i]? = some c → ∀ n, Num n (lane e.impl sum i) →
        Room F (n + (l.take m).countP (K.hit T.B F c)) → Num (n + (l.take m).countP (K.hit T.B F c)) (lane e.impl sum' i) := by
    intro m
    induction m with
    | zero => exact fun _ => ⟨sum, rfl, fun i _ c _ n hn _ => hn⟩
    | succ m ih =>
      intro hm
      obtain ⟨s1, k1, k2⟩ := ih (by omega)
      have ho : l[m]? = some l[m] := List.getElem?_eq_getElem (by omega)
      obtain ⟨d, s, Q, f1, f2, f3, f4⟩ := hR.run
      obtain ⟨s2, k3, k4⟩ := body_count f1 rfl hR.addA f3 f4 hR.tests f2 hs hF hx ho s1
      refine ⟨s2, ?_, fun i hi c hc n hn hr => ?_⟩
      · rw [List.range_succ, List.foldlM_append, k1]
        simp only [List.foldlM_cons, List.foldlM_nil, bind, Option.bind_some, k3, pure]
      · have e1 : (l.take (m + 1)).countP (K.hit T.B F c) = (l.take m).countP (K.hit T.B F c) + (K.hit T.B F c l[m]).toNat := by
          rw [List.take_add_one, ho, Option.toList_some, List.countP_append, List.countP_singleton]
          cases K.hit T.B F c l[m] <;> rfl
        rw [e1, ← Nat.add_assoc] at hr ⊢
        exact k4 i hi c hc _ (k2 i hi c hc n hn (hr.mono (Nat.le_add_right _ _))) hr
  obtain ⟨sum', k1, k2⟩ := key l.length (Nat.le_refl _)
  rw [List.take_length] at k2
  exact ⟨sum', k1, k2⟩

theorem outer_count (x q : Nat) (hx : x + q * e.impl.N ≤ l.length) (sum : e.impl.V) :
    ∃ sum', ((List.range q).map fun (b : Nat) => (e.impl.N, (x : Int) + (b * e.impl.N : Nat))).foldlM
        (fun s c => K.inner T A e l.length h c.2 s) sum = some sum' ∧
      ∀ i < e.impl.N, ∀ n, Num n (lane e.impl sum i) →
        Room F (n + sumTo (fun b => (l[x + (b * e.impl.N + i)]?.map (K.row T.B F l)).getD 0) q) →
        Num (n + sumTo (fun b => (l[x + (b * e.impl.N + i)]?.map (K.row T.B F l)).getD 0) q) (lane e.impl sum' i) := by
  induction q with
  | zero => exact ⟨sum, rfl, fun i _ n hn _ => hn⟩
  | succ q ih =>
    rw [Nat.succ_mul] at hx
    obtain ⟨s1, k1, k2⟩ := ih (by omega)
    obtain ⟨s2, k3, k4⟩ := inner_count hR hs hF (x := x + q * e.impl.N) (by omega) s1
    refine ⟨s2, ?_, fun i hi n hn hr => ?_⟩
    · rw [List.range_succ, List.map_append, List.foldlM_append, k1]
      simp only [List.map_cons, List.map_nil, List.foldlM_cons, List.foldlM_nil, bind, Option.bind_some]
      rw [← Int.natCast_add, k3]
      rfl
    · have hi' : x + q * e.impl.N + i < l.length := by omega
      have hc := List.getElem?_eq_getElem hi'
      rw [sumTo_succ, ← Nat.add_assoc] at hr ⊢
      have e1 : (l[x + (q * e.impl.N + i)]?.map (K.row T.B F l)).getD 0 = K.row T.B F l l[x + q * e.impl.N + i] := by
        rw [← Nat.add_assoc, hc]; rfl
      rw [e1] at hr ⊢
      exact k4 i hi _ hc _ (k2 i hi n hn (hr.mono (Nat.le_add_right _ _))) hr

omit hR hs in
theorem addLanes_ok (hC : Conforms single F) {Q : Reqs} (hT : Transfers e.impl Q T.E) (hq : Q.any = 1) (foo : Int) (sum : e.impl.V)
    (f : Nat → Nat) (hn : ∀ i < e.impl.N, Num (f i) (lane e.impl sum i)) (c : Int) (hc : -2 ^ 31 ≤ c)
    (hm : c + sumTo (fun i => min (f i) (2 ^ 24)) e.impl.N < 2 ^ 31) :
    addLanes T.E F e foo sum c = some (c + sumTo (fun i => min (f i) (2 ^ 24)) e.impl.N) := by
  obtain ⟨ws, m, k1, k2, k3, -⟩ := hT.shift (localArray foo e.impl.N) sum foo (by rw [hq]; exact one_dvd _) (fun i hi => by
    unfold localArray; rw [if_pos (by omega)]; rfl)
  unfold addLanes
  rw [k1, Option.bind_some, k2, Option.bind_some]
  have key : ∀ q ≤ e.impl.N, (List.range q).foldlM (fun c (j : Nat) => (m (foo + j)).bind fun v =>
      (Peel.CTy.signed 32).norm (c + (F.toIntT v).toInt)) c = some (c + sumTo (fun i => min (f i) (2 ^ 24)) q) := by
    intro q
    induction q with
    | zero => intro _; simp [sumTo, pure]
    | succ q ih =>
      intro hq
      rw [List.range_succ, List.foldlM_append, ih (by omega)]
      simp only [List.foldlM_cons, List.foldlM_nil, bind, Option.bind_some, k3 q (by omega), pure]
      rw [(hn q (by omega)).toInt hC, sumTo_succ]
      obtain ⟨r, hr⟩ : ∃ r, e.impl.N = q + 1 + r := ⟨e.impl.N - (q + 1), by omega⟩
      rw [hr, sumTo_add, sumTo_succ] at hm
      rw [Peel.norm_ok (by simp only [Peel.CTy.lo]; omega) (by simp only [Peel.CTy.hi]; omega), Option.bind_some]
      congr 1
      push_cast; ring
  exact key _ (Nat.le_refl _)

theorem update_count (hC : Conforms single F) (foo : Int) (x q : Nat) (hx : x + q * e.impl.N ≤ l.length)
    (hr : ∀ i < e.impl.N, Room F (sumTo (fun b => (l[x + (b * e.impl.N + i)]?.map (K.row T.B F l)).getD 0) q)) (c : Int) (hc : -2 ^ 31 ≤ c)
    (hm : c + sumTo (fun i => min (sumTo (fun b => (l[x + (b * e.impl.N + i)]?.map (K.row T.B F l)).getD 0) q) (2 ^ 24)) e.impl.N < 2 ^ 31) :
    K.update T F A e foo l.length h ((List.range q).map fun (b : Nat) => (e.impl.N, (x : Int) + (b * e.impl.N : Nat))) c =
      some (c + sumTo (fun i => min (sumTo (fun b => (l[x + (b * e.impl.N + i)]?.map (K.row T.B F l)).getD 0) q) (2 ^ 24)) e.impl.N) := by
  obtain ⟨s, k1, k2⟩ := outer_count hR hs hF x q hx (e.impl.bcast T.E 0)
  obtain ⟨d, s', Q, f1, f2, f3, f4⟩ := hR.run
  unfold Tally.update
  rw [k1, Option.bind_some]
  refine addLanes_ok hF hC f3 f4 foo s _ (fun i hi => ?_) c hc hm
  have := k2 i hi 0 (by rw [f1.bcast _ i hi]; exact ⟨zero_val.1, by rw [zero_val.2]; simp⟩) (by rw [Nat.zero_add]; exact hr i hi)
  rwa [Nat.zero_add] at this

end

section
variable {F : FOps 32} {e1 e : Entry 32} (hR1 : Ready e1 T.E F K) (h1 : e1.impl.N = 1) (hR : Ready e T.E F K) (hN : 0 < e.impl.N)
  (hs : ∀ v ∈ K.test.vars, Sees T A h l (K.src v).r (K.src v).k) (hF : Sums F) (hC : Conforms single F)
  (hr : ∀ p < e.impl.N, Room F (K.lane T.B F l e.impl.N p)) (hr' : Room F (K.rest T.B F l e.impl.N))
  {t : Peel.CTy} (ht0 : t.lo ≤ 0) (ht : (l.length : Int) < t.hi)
include hR1 h1 hR hN hs hF hC hr hr' ht0 ht

theorem pass_count (foo : Nat → Int) (c : Int) (hc : -2 ^ 31 ≤ c) (hm : c + K.capped T.B F l e.impl.N < 2 ^ 31) :
    K.pass T F A t e1 e foo l.length h c = some (c + K.capped T.B F l e.impl.N) := by
  generalize hn : l.length = n at *
  have hdm : n / e.impl.N * e.impl.N + n % e.impl.N = n := by rw [Nat.mul_comm]; exact Nat.div_add_mod n _
  have e1' : Peel.nextStop t e.impl.N 0 = some 0 := by simp [Peel.nextStop]
  have e2 : Peel.lastStop t e.impl.N n = some ((n / e.impl.N * e.impl.N : Nat) : Int) := by
    unfold Peel.lastStop
    have : (n : Int) - (n : Int).tmod e.impl.N = ((n / e.impl.N * e.impl.N : Nat) : Int) := by
      rw [← Int.ofNat_tmod]; omega
    rw [this]
    exact Peel.norm_ok (by omega) (by omega)
  have e3 : Peel.loop' t 1 0 0 = some ([], 0) := by simp [Peel.loop', Peel.loop]
  have hq : n / e.impl.N ≤ n / e.impl.N * e.impl.N := Nat.le_mul_of_pos_right _ hN
  have e4 : Peel.loop' t e.impl.N 0 ((n / e.impl.N * e.impl.N : Nat) : Int) =
      some ((List.range (n / e.impl.N)).map fun (b : Nat) => (e.impl.N, ((0 : Nat) : Int) + (b * e.impl.N : Nat)),
        ((n / e.impl.N * e.impl.N : Nat) : Int)) := by
    have := Peel.loop_ok (t := t) e.impl.N hN (n / e.impl.N) (n / e.impl.N * e.impl.N + 1) 0 (by omega) ht0 (by omega)
    rw [Int.zero_add] at this
    unfold Peel.loop'
    have h0 : (((n / e.impl.N * e.impl.N : Nat) : Int) - 0).toNat + 1 = n / e.impl.N * e.impl.N + 1 := by omega
    rw [h0, this]
    rfl
  have e5 : Peel.loop' t 1 ((n / e.impl.N * e.impl.N : Nat) : Int) n =
      some ((List.range (n % e.impl.N)).map fun (b : Nat) => (e1.impl.N, ((n / e.impl.N * e.impl.N : Nat) : Int) + (b * e1.impl.N : Nat)), (n : Int)) := by
    rw [h1]
    have := Peel.loop_ok (t := t) 1 (by decide) (n % e.impl.N) (n % e.impl.N + 1) ((n / e.impl.N * e.impl.N : Nat) : Int) (by omega)
      (by omega) (by omega)
    have h2 : ((n / e.impl.N * e.impl.N : Nat) : Int) + (n % e.impl.N * 1 : Nat) = n := by omega
    rw [h2] at this
    unfold Peel.loop'
    have h0 : ((n : Int) - ((n / e.impl.N * e.impl.N : Nat) : Int)).toNat + 1 = n % e.impl.N + 1 := by omega
    rw [h0, this]
  have hcap : K.capped T.B F l e.impl.N = sumTo (fun p => min (K.lane T.B F l e.impl.N p) (2 ^ 24)) e.impl.N +
      min (K.rest T.B F l e.impl.N) (2 ^ 24) := rfl
  have hlane : ∀ p, K.lane T.B F l e.impl.N p =
      sumTo (fun b => (l[0 + (b * e.impl.N + p)]?.map (K.row T.B F l)).getD 0) (n / e.impl.N) := by
    intro p
    unfold Tally.lane
    rw [hn]
    exact sumTo_congr fun b _ => by rw [Nat.zero_add]
  have hrest : K.rest T.B F l e.impl.N =
      sumTo (fun b => (l[n / e.impl.N * e.impl.N + (b * e1.impl.N + 0)]?.map (K.row T.B F l)).getD 0) (n % e.impl.N) := by
    unfold Tally.rest
    rw [hn, ← sumTo_drop, hn, show n - n / e.impl.N * e.impl.N = n % e.impl.N by omega, h1]
    exact sumTo_congr fun b _ => by rw [Nat.mul_one, Nat.add_zero]
  have u1 := update_count hR1 hs hF hC (foo 1) 0 0 (by omega) (fun i _ => .inl (Nat.zero_le _)) c hc (by
    rw [h1]; simp only [sumTo]; simp; omega)
  have u1' : K.update T F A e1 (foo 1) n h [] c = some c := by
    rw [hn] at u1
    refine u1.trans ?_
    rw [h1]; simp [sumTo]
  have u2 := update_count hR hs hF hC (foo 2) 0 (n / e.impl.N) (by omega) (fun i hi => by rw [← hlane]; exact hr i hi) c hc (by
    simp only [← hlane]; omega)
  simp only [← hlane] at u2
  have u3 := update_count hR1 hs hF hC (foo 3) (n / e.impl.N * e.impl.N) (n % e.impl.N) (by rw [h1]; omega)
    (fun i hi => by obtain rfl : i = 0 := by omega
                    rw [← hrest]; exact hr') (c + sumTo (fun p => min (K.lane T.B F l e.impl.N p) (2 ^ 24)) e.impl.N) (by omega) (by
    rw [h1, sumTo_succ]
    rw [h1] at hrest
    rw [← hrest]
    simp only [sumTo, List.range_zero, List.map_nil, List.sum_nil] at hcap hm ⊢
    omega)
  have hs1 : ∀ f : Nat → Nat, sumTo f e1.impl.N = f 0 := fun f => by rw [h1]; simp [sumTo]
  rw [hs1, ← hrest] at u3
  unfold Tally.pass
  rw [hn] at u2 u3
  rw [e1', Option.bind_some, e2, Option.bind_some, e3, Option.bind_some, u1', Option.bind_some, e4, Option.bind_some, u2, Option.bind_some,
    e5, Option.bind_some, u3, hcap]
  congr 1
  push_cast; ring

theorem repeat_count (foo : Nat → Int) (rep : Nat) (c : Int) (hc : -2 ^ 31 ≤ c) (hm : c + rep * K.capped T.B F l e.impl.N < 2 ^ 31) :
    K.repeat T F A t e1 e foo l.length h rep c = some (c + rep * K.capped T.B F l e.impl.N) := by
  induction rep generalizing c with
  | zero => simp [Tally.repeat]
  | succ rep ih =>
    have h2 : ((rep + 1 : Nat) : Int) * K.capped T.B F l e.impl.N = K.capped T.B F l e.impl.N + rep * K.capped T.B F l e.impl.N := by
      push_cast; ring
    have h3 : (0 : Int) ≤ rep * K.capped T.B F l e.impl.N := by positivity
    rw [h2] at hm
    unfold Tally.repeat
    rw [pass_count hR1 h1 hR hN hs hF hC hr hr' ht0 ht foo c hc (by omega), Option.bind_some, ih _ (by omega) (by omega), h2]
    congr 1
    ring

end

/-! ### C76 -/

variable {C : Cfg V} {dv : V}

/-- What accessors of a soa_vector see. -/
theorem vec_sees (hL : C.L.WF) (h1 : OneD C.tr) (hro : Roomy C.tr) {w : VecWorld V} (hV : VecValid C dv w) {s : Nat} {l : List (Cell V)}
    (hl : VecIs C w s l) (B : Bits 32 V) (base : Nat → Nat) (hb : ∀ id, 4 ∣ base id) (E : FEnv)
    (hx : ∀ n e, selectSizes C.tr ⟨n, 1, 1⟩ = .ok e → 4 ∣ e.x * e.y * e.z) :
    ∃ v id e', w.v s = some v ∧ selectSizes C.tr v.g.dim = .ok e' ∧ v.g.data = some id ∧
      ∀ r k m, C.L[r]? = some m → m.ty.size = 4 → k < m.elems → (∀ c ∈ l, (B.bits (c r k)).isSome = true) →
        Sees ⟨C.L, B, base, E⟩ ⟨e', id⟩ w.h l r k := by
  obtain ⟨τ, σ, hR, hVL⟩ := hV.refines hL h1 hro
  obtain ⟨l0, hσ, hsame⟩ := hl.list hL h1 hR hVL dv
  obtain ⟨a, ha, hA⟩ := hVL.vec hσ
  obtain ⟨g, hg, hok⟩ := hR.vec ha
  obtain ⟨id, b, k1, k2, -, k4⟩ := hok.buf
  refine ⟨_, id, ⟨a.ext, 1, 1⟩, hg, ?_, k1, fun r k m hm hsz hk hn => ⟨m, b, hm, k2, hsz, ?_, fun x c hc => ⟨?_, ?_⟩⟩⟩
  · rw [hok.dim]; exact hok.sel
  · obtain ⟨n, e, -⟩ := addr_form C.L (base id) ⟨a.ext, 1, 1⟩ 0 0 0 ⟨0, 0, 0, r, k⟩ m
    rw [e, hsz]
    have := hx _ _ hok.sel
    refine Int.dvd_add (Int.dvd_add (Int.natCast_dvd_natCast.2 (hb id)) (Int.natCast_dvd_natCast.2 (this.mul_right _))) (Dvd.intro_left _ rfl)
  · have hi := (List.getElem?_eq_some_iff.1 hc).1
    have hi0 : x < l0.length := by rw [hsame.1]; exact hi
    have hc0 := List.getElem?_eq_getElem hi0
    have hce : a.cells x = some l0[x] := by rw [hA.cells x hi0, hc0]
    have hp := hok.bnd x (by rw [hce]; rfl)
    have hcc : l0[x] r k = c r k := by
      have := congrFun (congrFun (hsame.2 x _ _ hc0 hc c) r) k
      simp only [overlay, hm, if_pos hk] at this
      exact this
    have hrd : off C.L ⟨a.ext, 1, 1⟩ (x : Nat) 0 0 ⟨0, 0, 0, r, k⟩ m = (slot a.ext (offset C.L r) m.ty.size k x : Nat) := by
      unfold off
      rw [userRef_slot hL (vshift (X := 0) (p := x) (by omega)) hm hk]
      exact congrArg (fun n => ((slot n (offset C.L r) m.ty.size k x : Nat) : Int)) (prod1 _)
    change b.read (off C.L ⟨a.ext, 1, 1⟩ (x : Nat) 0 0 ⟨0, 0, 0, r, k⟩ m) m.ty = _
    rw [hrd, k4.read hL hm hk hp (vcont_some hce r k), hcc]
  · exact hn c (List.mem_of_getElem? hc)

theorem float_ready (c : SV.Cfg) (e : Entry 32) (he : e ∈ SV.floatVecs c) (hcmp : SV.hasFloatCmp c e.impl.N = true) (E : FEnv) (K : Tally)
    (hk : K.test.only (SV.exactDiv c e.impl.N) (!SV.usesNeon c e.impl.N) true = true) : Ready e E E.f32 K := by
  have hN := SV.float_arity c e he
  have H := SV.float_faithful c e he E
  rw [SV.C45_float_available c e he, hcmp] at H
  obtain ⟨D, hD⟩ := Option.isSome_iff_exists.1 ((SV.C45_float_available c e he).trans hcmp)
  refine ⟨⟨_, _, _, H, hk, SV.C46_float_partial c e he E, ?_⟩, (SV.C44_float c e he E).2.2.2.1,
    tests (F := FEnv.f32) hD (SV.float_arith c e he).len (SV.float_cmp c e he D hD)⟩
  have : ∀ n ∈ [1, 2, 4, 8, 16, 32], SV.hasFloatCmp c n = true → (SV.floatReqs c n).any = 1 := by cases c <;> decide
  exact this _ hN hcmp

theorem only_scalar {c : SV.Cfg} {e1 : Entry 32} (h1 : e1.impl.N = 1) (x : Expr 32) :
    x.only (SV.exactDiv c e1.impl.N) (!SV.usesNeon c e1.impl.N) true = true := by
  rw [h1]
  have h2 : SV.exactDiv c 1 = true := rfl
  have h3 : (!SV.usesNeon c 1) = true := by simp only [SV.usesNeon]; rfl
  rw [h2, h3]
  exact only_all _

/-- What the functor leaves in the counter. -/
theorem tally_count (hL : C.L.WF) (ho : OneD C.tr) (hro : Roomy C.tr)
    (hx : ∀ n e, selectSizes C.tr ⟨n, 1, 1⟩ = .ok e → 4 ∣ e.x * e.y * e.z)
    (c : SV.Cfg) (e1 e : Entry 32) (he1 : e1 ∈ SV.floatVecs c) (h1 : e1.impl.N = 1)
    (he : e ∈ SV.floatVecs c) (hcmp : SV.hasFloatCmp c e.impl.N = true) (E : FEnv) (hF : Sums E.f32) (hC : Conforms single E.f32)
    (B : Bits 32 V) (base : Nat → Nat) (hb : ∀ id, 4 ∣ base id) (K : Tally)
    (hk : K.test.only (SV.exactDiv c e.impl.N) (!SV.usesNeon c e.impl.N) true = true) (t : Peel.CTy) (foo : Nat → Int)
    {w : VecWorld V} (hV : VecValid C dv w) {s : Nat} {l : List (Cell V)} (hl : VecIs C w s l) (ht0 : t.lo ≤ 0) (ht : (l.length : Int) < t.hi)
    (hm : ∀ v ∈ K.test.vars, ∃ m, C.L[(K.src v).r]? = some m ∧ m.ty.size = 4 ∧ (K.src v).k < m.elems)
    (hnum : ∀ v ∈ K.test.vars, ∀ x ∈ l, (B.bits (x (K.src v).r (K.src v).k)).isSome = true)
    (hr : ∀ p < e.impl.N, Room E.f32 (K.lane B E.f32 l e.impl.N p)) (hr' : Room E.f32 (K.rest B E.f32 l e.impl.N))
    (rep : Nat) (counter : Int) (h0 : -2 ^ 31 ≤ counter) (hi : counter + rep * K.capped B E.f32 l e.impl.N < 2 ^ 31) :
    tally C B base E E.f32 K t e1 e foo rep l.length w s counter = some (counter + rep * K.capped B E.f32 l e.impl.N) := by
  have hpos : 0 < e.impl.N := by
    have : ∀ n ∈ [1, 2, 4, 8, 16, 32], 0 < n := by decide
    exact this _ (SV.float_arity c e he)
  have hcmp1 : SV.hasFloatCmp c e1.impl.N = true := by rw [h1]; cases c <;> rfl
  obtain ⟨v, id, e', k1, k2, k3, k4⟩ := vec_sees hL ho hro hV hl B base hb E hx
  unfold tally
  simp only [k1, k2, k3]
  exact repeat_count (T := ⟨C.L, B, base, E⟩) (float_ready c e1 he1 hcmp1 E K (only_scalar h1 _)) h1 (float_ready c e he hcmp E K hk) hpos
    (fun v hv => by obtain ⟨m, m1, m2, m3⟩ := hm v hv; exact k4 _ _ m m1 m2 m3 (hnum v hv)) hF hC hr hr' ht0 ht foo rep counter h0 hi

theorem capped_eq {K : Tally} {B : Bits 32 V} {F : FOps 32} {l : List (Cell V)} {N : Nat} (h : ∀ p < N, K.lane B F l N p ≤ 2 ^ 24)
    (h' : K.rest B F l N ≤ 2 ^ 24) : K.capped B F l N = K.pairs B F l := by
  rw [← lanes_pairs K B F l N]
  unfold Tally.capped
  rw [Nat.min_eq_left h']
  congr 1
  exact sumTo_congr fun p hp => Nat.min_eq_left (h p hp)

theorem row_le (K : Tally) (B : Bits 32 V) (F : FOps 32) (l : List (Cell V)) (c : Cell V) : K.row B F l c ≤ l.length := List.countP_le_length

theorem sumTo_bound {f : Nat → Nat} {n b : Nat} (h : ∀ i < n, f i ≤ b) : sumTo f n ≤ n * b := by
  induction n with
  | zero => simp [sumTo]
  | succ n ih =>
    have := ih fun i hi => h i (by omega)
    have := h n (by omega)
    rw [sumTo_succ, Nat.succ_mul]; omega

theorem opt_row_le (K : Tally) (B : Bits 32 V) (F : FOps 32) (l : List (Cell V)) (o : Option (Cell V)) :
    (o.map (K.row B F l)).getD 0 ≤ l.length := by
  cases o with
  | none => exact Nat.zero_le _
  | some c => exact row_le K B F l c

theorem lane_le (K : Tally) (B : Bits 32 V) (F : FOps 32) (l : List (Cell V)) (N p : Nat) : K.lane B F l N p ≤ l.length / N * l.length :=
  sumTo_bound fun _ _ => opt_row_le K B F l _

theorem rest_le (K : Tally) (B : Bits 32 V) (F : FOps 32) (l : List (Cell V)) (N : Nat) : K.rest B F l N ≤ l.length % N * l.length := by
  have hdm : l.length / N * N + l.length % N = l.length := by rw [Nat.mul_comm]; exact Nat.div_add_mod _ _
  unfold Tally.rest
  rw [← sumTo_drop, show l.length - l.length / N * N = l.length % N by omega]
  exact sumTo_bound fun _ _ => opt_row_le K B F l _

/-- C76: a functor which counts pairs of elements of a soa_vector by vectors of any arity adds `repeats` times the number of pairs to the
    counter, as two nested scalar loops do, if each lane counts at most 2 ^ 24 pairs. Missing: more pairs (see C76_false), and the overflow of
    the counter, which is undefined for scalar code, too. -/
theorem C76_float_partial (hL : C.L.WF) (ho : OneD C.tr) (hro : Roomy C.tr)
    (hx : ∀ n e, selectSizes C.tr ⟨n, 1, 1⟩ = .ok e → 4 ∣ e.x * e.y * e.z)
    (c : SV.Cfg) (e1 e : Entry 32) (he1 : e1 ∈ SV.floatVecs c) (h1 : e1.impl.N = 1)
    (he : e ∈ SV.floatVecs c) (hcmp : SV.hasFloatCmp c e.impl.N = true) (E : FEnv) (hF : Sums E.f32) (hC : Conforms single E.f32)
    (B : Bits 32 V) (base : Nat → Nat) (hb : ∀ id, 4 ∣ base id) (K : Tally)
    (hk : K.test.only (SV.exactDiv c e.impl.N) (!SV.usesNeon c e.impl.N) true = true) (t : Peel.CTy) (foo : Nat → Int)
    {w : VecWorld V} (hV : VecValid C dv w) {s : Nat} {l : List (Cell V)} (hl : VecIs C w s l) (ht0 : t.lo ≤ 0) (ht : (l.length : Int) < t.hi)
    (hm : ∀ v ∈ K.test.vars, ∃ m, C.L[(K.src v).r]? = some m ∧ m.ty.size = 4 ∧ (K.src v).k < m.elems)
    (hnum : ∀ v ∈ K.test.vars, ∀ x ∈ l, (B.bits (x (K.src v).r (K.src v).k)).isSome = true)
    (hr : ∀ p < e.impl.N, K.lane B E.f32 l e.impl.N p ≤ 2 ^ 24) (hr' : K.rest B E.f32 l e.impl.N ≤ 2 ^ 24)
    (rep : Nat) (counter : Int) (h0 : -2 ^ 31 ≤ counter) (hi : counter + rep * K.pairs B E.f32 l < 2 ^ 31) :
    tally C B base E E.f32 K t e1 e foo rep l.length w s counter = some (counter + rep * K.pairs B E.f32 l) := by
  rw [← capped_eq hr hr'] at hi ⊢
  exact tally_count hL ho hro hx c e1 e he1 h1 he hcmp E hF hC B base hb K hk t foo hV hl ht0 ht hm hnum
    (fun p hp => .inl (hr p hp)) (.inl hr') rep counter h0 hi

/-- C76 for few elements, whatever is tested. -/
theorem C76_float_few (hL : C.L.WF) (ho : OneD C.tr) (hro : Roomy C.tr)
    (hx : ∀ n e, selectSizes C.tr ⟨n, 1, 1⟩ = .ok e → 4 ∣ e.x * e.y * e.z)
    (c : SV.Cfg) (e1 e : Entry 32) (he1 : e1 ∈ SV.floatVecs c) (h1 : e1.impl.N = 1)
    (he : e ∈ SV.floatVecs c) (hcmp : SV.hasFloatCmp c e.impl.N = true) (E : FEnv) (hF : Sums E.f32) (hC : Conforms single E.f32)
    (B : Bits 32 V) (base : Nat → Nat) (hb : ∀ id, 4 ∣ base id) (K : Tally)
    (hk : K.test.only (SV.exactDiv c e.impl.N) (!SV.usesNeon c e.impl.N) true = true) (t : Peel.CTy) (foo : Nat → Int)
    {w : VecWorld V} (hV : VecValid C dv w) {s : Nat} {l : List (Cell V)} (hl : VecIs C w s l) (ht0 : t.lo ≤ 0) (ht : (l.length : Int) < t.hi)
    (hm : ∀ v ∈ K.test.vars, ∃ m, C.L[(K.src v).r]? = some m ∧ m.ty.size = 4 ∧ (K.src v).k < m.elems)
    (hnum : ∀ v ∈ K.test.vars, ∀ x ∈ l, (B.bits (x (K.src v).r (K.src v).k)).isSome = true)
    (hr : l.length / e.impl.N * l.length ≤ 2 ^ 24) (hr' : l.length % e.impl.N * l.length ≤ 2 ^ 24)
    (rep : Nat) (counter : Int) (h0 : -2 ^ 31 ≤ counter) (hi : counter + rep * K.pairs B E.f32 l < 2 ^ 31) :
    tally C B base E E.f32 K t e1 e foo rep l.length w s counter = some (counter + rep * K.pairs B E.f32 l) :=
  C76_float_partial hL ho hro hx c e1 e he1 h1 he hcmp E hF hC B base hb K hk t foo hV hl ht0 ht hm hnum
    (fun p _ => (lane_le K B E.f32 l _ p).trans hr) ((rest_le K B E.f32 l _).trans hr') rep counter h0 hi

/-- C76 for any number of pairs: each lane counts no further than 2 ^ 24. -/
theorem C76_float_exact (hL : C.L.WF) (ho : OneD C.tr) (hro : Roomy C.tr)
    (hx : ∀ n e, selectSizes C.tr ⟨n, 1, 1⟩ = .ok e → 4 ∣ e.x * e.y * e.z)
    (c : SV.Cfg) (e1 e : Entry 32) (he1 : e1 ∈ SV.floatVecs c) (h1 : e1.impl.N = 1)
    (he : e ∈ SV.floatVecs c) (hcmp : SV.hasFloatCmp c e.impl.N = true) (E : FEnv) (hF : Sums E.f32) (hC : Conforms single E.f32)
    (B : Bits 32 V) (base : Nat → Nat) (hb : ∀ id, 4 ∣ base id) (K : Tally)
    (hk : K.test.only (SV.exactDiv c e.impl.N) (!SV.usesNeon c e.impl.N) true = true) (t : Peel.CTy) (foo : Nat → Int)
    {w : VecWorld V} (hV : VecValid C dv w) {s : Nat} {l : List (Cell V)} (hl : VecIs C w s l) (ht0 : t.lo ≤ 0) (ht : (l.length : Int) < t.hi)
    (hm : ∀ v ∈ K.test.vars, ∃ m, C.L[(K.src v).r]? = some m ∧ m.ty.size = 4 ∧ (K.src v).k < m.elems)
    (hnum : ∀ v ∈ K.test.vars, ∀ x ∈ l, (B.bits (x (K.src v).r (K.src v).k)).isSome = true)
    (hTies : Ties E.f32)
    (rep : Nat) (counter : Int) (h0 : -2 ^ 31 ≤ counter) (hi : counter + rep * K.capped B E.f32 l e.impl.N < 2 ^ 31) :
    tally C B base E E.f32 K t e1 e foo rep l.length w s counter = some (counter + rep * K.capped B E.f32 l e.impl.N) :=
  tally_count hL ho hro hx c e1 e he1 h1 he hcmp E hF hC B base hb K hk t foo hV hl ht0 ht hm hnum
    (fun _ _ => .inr hTies) (.inr hTies) rep counter h0 hi

/-- Too few pairs are counted if a lane counts more than 2 ^ 24 of them. -/
theorem capped_lt {K : Tally} {B : Bits 32 V} {F : FOps 32} {l : List (Cell V)} {N p : Nat} (hp : p < N) (h : 2 ^ 24 < K.lane B F l N p) :
    K.capped B F l N < K.pairs B F l := by
  rw [← lanes_pairs K B F l N]
  unfold Tally.capped
  have h1 : sumTo (fun p => min (K.lane B F l N p) (2 ^ 24)) N < sumTo (K.lane B F l N) N :=
    sumTo_lt (fun i _ => Nat.min_le_left _ _) hp (by omega)
  have h2 := Nat.min_le_left (K.rest B F l N) (2 ^ 24)
  unfold sumTo at h1
  unfold sumTo
  omega

/-- C76 is false whenever a lane counts more than 2 ^ 24 pairs: the counter is less than the number of pairs. -/
theorem C76_false (hL : C.L.WF) (ho : OneD C.tr) (hro : Roomy C.tr)
    (hx : ∀ n e, selectSizes C.tr ⟨n, 1, 1⟩ = .ok e → 4 ∣ e.x * e.y * e.z)
    (c : SV.Cfg) (e1 e : Entry 32) (he1 : e1 ∈ SV.floatVecs c) (h1 : e1.impl.N = 1)
    (he : e ∈ SV.floatVecs c) (hcmp : SV.hasFloatCmp c e.impl.N = true) (E : FEnv) (hF : Sums E.f32) (hC : Conforms single E.f32)
    (B : Bits 32 V) (base : Nat → Nat) (hb : ∀ id, 4 ∣ base id) (K : Tally)
    (hk : K.test.only (SV.exactDiv c e.impl.N) (!SV.usesNeon c e.impl.N) true = true) (t : Peel.CTy) (foo : Nat → Int)
    {w : VecWorld V} (hV : VecValid C dv w) {s : Nat} {l : List (Cell V)} (hl : VecIs C w s l) (ht0 : t.lo ≤ 0) (ht : (l.length : Int) < t.hi)
    (hm : ∀ v ∈ K.test.vars, ∃ m, C.L[(K.src v).r]? = some m ∧ m.ty.size = 4 ∧ (K.src v).k < m.elems)
    (hnum : ∀ v ∈ K.test.vars, ∀ x ∈ l, (B.bits (x (K.src v).r (K.src v).k)).isSome = true)
    (hTies : Ties E.f32) (p : Nat) (hp : p < e.impl.N) (hmany : 2 ^ 24 < K.lane B E.f32 l e.impl.N p)
    (rep : Nat) (hrep : 0 < rep) (counter : Int) (h0 : -2 ^ 31 ≤ counter) (hi : counter + rep * K.pairs B E.f32 l < 2 ^ 31) :
    ∃ n, tally C B base E E.f32 K t e1 e foo rep l.length w s counter = some n ∧ n < counter + rep * K.pairs B E.f32 l := by
  have hlt := capped_lt hp hmany
  have h2 : (rep : Int) * K.capped B E.f32 l e.impl.N < rep * K.pairs B E.f32 l :=
    mul_lt_mul_of_pos_left (by exact_mod_cast hlt) (by exact_mod_cast hrep)
  exact ⟨_, C76_float_exact hL ho hro hx c e1 e he1 h1 he hcmp E hF hC B base hb K hk t foo hV hl ht0 ht hm hnum hTies
    rep counter h0 (by omega), by omega⟩

/-! ### The hypotheses can be met -/

/-- There is no number of single precision between 2 ^ 24 and 2 ^ 24 + 2. -/
theorem gap (y : BitVec 32) (hy : single.finite y) : 1 ≤ |single.val y - (2 ^ 24 + 1)| := by
  have hex : single.ex y < 255 := by
    have h1 : single.ex y < 2 ^ 8 := Nat.mod_lt _ (by decide)
    have h2 : single.ex y ≠ 2 ^ 8 - 1 := hy
    omega
  have hman : (single.man y : ℚ) + 1 ≤ 2 ^ 23 := by
    have : single.man y < 2 ^ 23 := Nat.mod_lt _ (by decide)
    exact_mod_cast this
  have hman0 : (0 : ℚ) ≤ single.man y := by positivity
  have hb : ((single.bias : Nat) : ℤ) = 127 := rfl
  have hmm : ((single.m : Nat) : ℤ) = 23 := rfl
  have hm : single.m = 23 := rfl
  have hmag : 0 ≤ single.mag y := by
    unfold SV.Fmt.mag
    split
    · exact mul_nonneg hman0 (zpow_nonneg (by norm_num) _)
    · exact mul_nonneg (add_nonneg (by positivity) hman0) (zpow_nonneg (by norm_num) _)
  have low : single.val y ≤ 2 ^ 24 → 1 ≤ |single.val y - (2 ^ 24 + 1)| := by
    intro h
    rw [abs_of_nonpos (by linarith)]
    linarith
  by_cases hn : single.neg y = true
  · apply low
    unfold SV.Fmt.val
    rw [if_pos hn]
    have : (0 : ℚ) ≤ 2 ^ 24 := by positivity
    linarith
  · have hv : single.val y = single.mag y := by unfold SV.Fmt.val; rw [if_neg hn]
    by_cases h0 : single.ex y = 0
    · apply low
      rw [hv]
      unfold SV.Fmt.mag
      rw [if_pos h0, hb, hmm]
      have h2 : (2 : ℚ) ^ ((1 : ℤ) - 127 - 23) ≤ 1 := by norm_num
      have : (single.man y : ℚ) * 2 ^ ((1 : ℤ) - 127 - 23) ≤ single.man y * 1 := mul_le_mul_of_nonneg_left h2 hman0
      have : (2 : ℚ) ^ 23 ≤ 2 ^ 24 := by norm_num
      linarith
    · by_cases h1 : single.ex y ≤ 150
      · apply low
        rw [hv]
        unfold SV.Fmt.mag
        rw [if_neg h0, hb, hmm, hm]
        have h2 : (2 : ℚ) ^ ((single.ex y : ℤ) - 127 - 23) ≤ 2 ^ (0 : ℤ) := zpow_le_zpow_right₀ (by norm_num) (by omega)
        rw [zpow_zero] at h2
        have : ((2 : ℚ) ^ 23 + single.man y) * 2 ^ ((single.ex y : ℤ) - 127 - 23) ≤ (2 ^ 23 + single.man y) * 1 :=
          mul_le_mul_of_nonneg_left h2 (by positivity)
        have : (2 : ℚ) ^ 23 + 2 ^ 23 = 2 ^ 24 := by norm_num
        linarith
      · obtain ⟨k, hk⟩ : ∃ k : Nat, single.ex y = 151 + k := ⟨single.ex y - 151, by omega⟩
        have e1 : single.val y = (((2 ^ 23 + single.man y) * 2 ^ k * 2 : Nat) : ℚ) := by
          rw [hv]
          unfold SV.Fmt.mag
          rw [if_neg h0, hb, hmm, hm]
          have : ((single.ex y : ℤ) - 127 - 23) = ((k + 1 : Nat) : ℤ) := by omega
          rw [this, zpow_natCast, pow_succ]
          push_cast; ring
        generalize (2 ^ 23 + single.man y) * 2 ^ k = n at e1
        rw [e1]
        have h3 : (((n * 2 : Nat) : ℚ) - (2 ^ 24 + 1)) = ((2 * (n : ℤ) - (2 ^ 24 + 1) : ℤ) : ℚ) := by push_cast; ring
        rw [h3, ← Int.cast_abs]
        have : (1 : ℤ) ≤ |2 * (n : ℤ) - (2 ^ 24 + 1)| := Int.one_le_abs (by omega)
        exact_mod_cast this

namespace Demo

open Classical in
/-- Operations which count. -/
noncomputable def counting : FOps 32 := { SV.someOps 32 single with
  add := fun x y => if single.finite x ∧ single.val x = 2 ^ 24 ∧ single.val y = 1 then x else
    if h : ∃ z : BitVec 32, single.Nearest (single.val x + single.val y) z then h.choose else 0
  lt := fun x y => decide (single.val x < single.val y) }

theorem counting_sums : Sums counting := by
  intro x y hx hy _
  by_cases h : single.finite x ∧ single.val x = 2 ^ 24 ∧ single.val y = 1
  · simp only [counting, if_pos h]
    refine ⟨hx, fun z hz => ?_⟩
    rw [h.2.1, h.2.2]
    refine le_trans ?_ (gap z hz)
    norm_num
  · have h' := SV.exists_nearest (f := single) (w := 32) ⟨0, zero_val.1⟩ (single.val x + single.val y)
    simp only [counting, if_neg h, dif_pos h']
    exact h'.choose_spec

theorem counting_ties : Ties counting := by
  intro x y hx _ h1 h2
  simp only [counting, if_pos (show single.finite x ∧ single.val x = 2 ^ 24 ∧ single.val y = 1 from ⟨hx, h1, h2⟩)]
  exact h1

theorem counting_conforms : Conforms single counting :=
  ⟨SV.conforms_single.ofInt, SV.conforms_single.div, SV.conforms_single.sqrt, SV.conforms_single.toIntT, SV.conforms_single.toIntR⟩

/-- struct Particle { float posX, posY, posZ; } -/
def particles : Cfg (BitVec 32) := ⟨List.replicate 3 ⟨⟨4, true⟩, none, 0⟩, .dflt, false⟩

theorem particles_WF : particles.L.WF := by
  intro m hm
  simp only [particles, List.mem_replicate] at hm
  rw [hm.2]
  simp [Member.elems]

/-- posX < 1 -/
def close : Tally := ⟨.var 0, .lt, one32, fun _ => ⟨true, 0, 0⟩⟩

/-- A vector of particles at the origin. -/
theorem many (n : Nat) (e : Ext) (he : selectSizes .dflt ⟨n, 1, 1⟩ = .ok e) : ∃ w : VecWorld (BitVec 32), VecValid particles 0 w ∧
    VecIs particles w 0 (List.replicate n fun _ _ => 0) := by
  have hleg : VecList.Legal particles (0 : BitVec 32) VecList.start [.newFill 0 n fun _ _ => 0] := ⟨⟨rfl, .inl rfl⟩, fun _ _ _ => trivial⟩
  obtain ⟨w, outs, τ, σ, k1, k2, hR, h⟩ := list_run particles_WF OneD.dflt Roomy.dflt 0 _ VR.init (fun _ => rfl) hleg
  obtain ⟨out, outs', σ1, _, hp, k2⟩ := k2
  obtain ⟨_, rfl⟩ := k2
  have he' : selectSizes particles.tr ⟨n, 1, 1⟩ = .ok e := he
  simp only [VecList.Post, VecList.Alloc, he'] at hp
  obtain ⟨_, rfl⟩ := hp
  exact ⟨w, ⟨_, _, hleg, k1⟩, VecIs.of_lists particles_WF OneD.dflt hR h (upd_self _ _ _) 0⟩

theorem close_hit (c d : Cell (BitVec 32)) (h : c 0 0 = 0) : close.hit B counting c d = true := by
  have : single.val (0 : BitVec 32) < single.val one32 := by rw [zero_val.2, one_val.2]; norm_num
  have e : close.hit B counting c d = decide (single.val (c 0 0) < single.val one32) := rfl
  rw [e, h]
  exact decide_eq_true this

theorem close_row (n : Nat) : close.row B counting (List.replicate n fun _ _ => 0) (fun _ _ => 0) = n := by
  unfold Tally.row
  rw [List.countP_replicate, if_pos (close_hit _ _ rfl)]

theorem close_lane (n p : Nat) (hp : p < 8) : close.lane B counting (List.replicate n fun _ _ => 0) 8 p = n / 8 * n := by
  unfold Tally.lane
  rw [List.length_replicate]
  have : ∀ q ≤ n / 8, sumTo (fun b => ((List.replicate n (fun _ _ => 0 : Cell (BitVec 32)))[b * 8 + p]?.map
      (close.row B counting (List.replicate n fun _ _ => 0))).getD 0) q = q * n := by
    intro q
    induction q with
    | zero => intro _; simp [sumTo]
    | succ q ih =>
      intro hq
      rw [sumTo_succ, ih (by omega), List.getElem?_replicate, if_pos (by omega), Option.map_some, Option.getD_some, close_row, Nat.succ_mul]
  exact this _ (Nat.le_refl _)

theorem close_pairs (n : Nat) : close.pairs B counting (List.replicate n fun _ _ => 0) = n * n := by
  unfold Tally.pairs
  rw [List.map_replicate, close_row, List.sum_replicate]
  rfl

theorem dflt_four (n : Nat) (e : Ext) (h : selectSizes particles.tr ⟨n, 1, 1⟩ = .ok e) : 4 ∣ e.x * e.y * e.z :=
  Nat.dvd_trans (by decide) (dflt_prod h).1

/-- 11592 particles on AVX: of the 134374464 pairs, some are not counted. -/
example (E : FEnv) : ∃ (w : VecWorld (BitVec 32)) (e1 e : Entry 32), e.impl.N = 8 ∧ VecIs particles w 0 (List.replicate 11592 fun _ _ => 0) ∧
    ∃ n, tally particles B (fun _ => 4096) { E with f32 := counting } counting close (.signed 64) e1 e (fun _ => 0) 1 11592 w 0 0 = some n ∧
      n < 134374464 := by
  obtain ⟨e, he, hn⟩ := avx8
  obtain ⟨e1, he1, hn1⟩ : ∃ e ∈ SV.floatVecs .avx, e.impl.N = 1 := ⟨_, List.mem_cons_self .., rfl⟩
  obtain ⟨w, hV, hl⟩ := many 11592 _ rfl
  have := C76_false particles_WF OneD.dflt Roomy.dflt dflt_four .avx e1 e he1 hn1 he (by rw [hn]; rfl) { E with f32 := counting } counting_sums
    counting_conforms B (fun _ => 4096) (fun _ => by decide) close (by rw [hn]; rfl) (.signed 64) (fun _ => 0) hV hl (by decide) (by
      rw [List.length_replicate]; decide) (fun v _ => ⟨⟨⟨4, true⟩, none, 0⟩, rfl, rfl, Nat.zero_lt_one⟩) (fun _ _ _ _ => rfl) counting_ties 0 (by omega) (by
      rw [hn, show ({ E with f32 := counting } : FEnv).f32 = counting from rfl, close_lane _ _ (by decide)]; decide) 1 (by decide) 0 (by decide) (by
      rw [show ({ E with f32 := counting } : FEnv).f32 = counting from rfl, close_pairs]; decide)
  rw [show ({ E with f32 := counting } : FEnv).f32 = counting from rfl, close_pairs, List.length_replicate] at this
  exact ⟨w, e1, e, hn, hl, by simpa using this⟩

/-- 1003 particles on AVX. -/
example (E : FEnv) : ∃ (w : VecWorld (BitVec 32)) (e1 e : Entry 32), e.impl.N = 8 ∧ VecIs particles w 0 (List.replicate 1003 fun _ _ => 0) ∧
    tally particles B (fun _ => 4096) { E with f32 := counting } counting close (.signed 64) e1 e (fun _ => 0) 5 1003 w 0 7 = some 5030052 := by
  obtain ⟨e, he, hn⟩ := avx8
  obtain ⟨e1, he1, hn1⟩ : ∃ e ∈ SV.floatVecs .avx, e.impl.N = 1 := ⟨_, List.mem_cons_self .., rfl⟩
  obtain ⟨w, hV, hl⟩ := many 1003 _ rfl
  have := C76_float_few particles_WF OneD.dflt Roomy.dflt dflt_four .avx e1 e he1 hn1 he (by rw [hn]; rfl) { E with f32 := counting } counting_sums
    counting_conforms B (fun _ => 4096) (fun _ => by decide) close (by rw [hn]; rfl) (.signed 64) (fun _ => 0) hV hl (by decide) (by
      rw [List.length_replicate]; decide) (fun v _ => ⟨⟨⟨4, true⟩, none, 0⟩, rfl, rfl, Nat.zero_lt_one⟩) (fun _ _ _ _ => rfl) (by rw [hn, List.length_replicate]; decide)
    (by rw [hn, List.length_replicate]; decide) 5 7 (by decide) (by
      rw [show ({ E with f32 := counting } : FEnv).f32 = counting from rfl, close_pairs]; decide)
  rw [show ({ E with f32 := counting } : FEnv).f32 = counting from rfl, close_pairs, List.length_replicate] at this
  exact ⟨w, e1, e, hn, hl, this⟩

end Demo
end LFA.GK
