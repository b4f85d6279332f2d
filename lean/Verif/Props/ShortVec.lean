/-
  Properties of `short_vec` (C43–C46, C54, C55, C57). All of these are about the tables `floatVecs`, `doubleVecs` and `intVecs`,
  which list the specializations that exist on a target.
-/
import Verif.SVP.Laws
import Mathlib.Tactic.SplitIfs
set_option autoImplicit false

namespace LFA.SV

/-- Lane `i` of a vector. -/
def lane {w : Nat} (I : Impl w) (v : I.V) (i : Nat) : BitVec w := (I.lanes v).getD i 0

/-- `op` computes lane `i` of the result as `f a[i] b[i]`. -/
def LaneWise {w : Nat} (I : Impl w) (op : I.V → I.V → Option I.V) (f : BitVec w → BitVec w → BitVec w) : Prop :=
  ∀ a b, ∃ v, op a b = some v ∧ ∀ i < I.N, lane I v i = f (lane I a i) (lane I b i)

/-- The same for `int`: only if no lane overflows (or divides by zero), which is undefined behaviour in C++. -/
def LaneWiseInt (I : Impl 32) (op : I.V → I.V → Option I.V) (f : Int → Int → Int) (ok : Int → Int → Prop) : Prop :=
  ∀ a b, (∀ i < I.N, ok (lane I a i).toInt (lane I b i).toInt) →
    ∃ v, op a b = some v ∧ ∀ i < I.N, (lane I v i).toInt = f (lane I a i).toInt (lane I b i).toInt

section
variable {w : Nat}

theorem zip_getD {α β γ : Type} (f : α → β → γ) (x : α) (y : β) (z : γ) : ∀ (as : List α) (bs : List β) (i : Nat), i < as.length →
    i < bs.length → (List.zipWith f as bs).getD i z = f (as.getD i x) (bs.getD i y)
  | _ :: _, _ :: _, 0, _, _ => rfl
  | _ :: as, _ :: bs, i + 1, h, h' => zip_getD f x y z as bs i (Nat.lt_of_succ_lt_succ h) (Nat.lt_of_succ_lt_succ h')

theorem map2?_total {f : BitVec w → BitVec w → BitVec w} : ∀ as bs : List (BitVec w),
    map2? (fun x y => some (f x y)) as bs = some (List.zipWith f as bs)
  | [], _ => by cases ‹List (BitVec w)› <;> rfl
  | _ :: _, [] => rfl
  | _ :: as, _ :: bs => by simp only [map2?, map2?_total as bs]; rfl

theorem laneWise {I : Impl w} {op : I.V → I.V → Option I.V} {f : BitVec w → BitVec w → BitVec w} (hl : LenLaw I.N I.lanes)
    (h : BinLaw I.lanes op fun x y => some (f x y)) : LaneWise I op f := by
  intro a b
  obtain ⟨v, h1, h2⟩ := h a b _ (map2?_total _ _)
  exact ⟨v, h1, fun i hi => by
    simp only [lane, h2]
    exact zip_getD f 0 0 0 _ _ i (by rw [hl]; exact hi) (by rw [hl]; exact hi)⟩

theorem map2?_ok {f : BitVec w → BitVec w → Option (BitVec w)} {g : BitVec w → BitVec w → BitVec w} :
    ∀ as bs : List (BitVec w), (∀ i, i < as.length → i < bs.length → f (as.getD i 0) (bs.getD i 0) = some (g (as.getD i 0) (bs.getD i 0))) →
      map2? f as bs = some (List.zipWith g as bs)
  | [], _, _ => by cases ‹List (BitVec w)› <;> rfl
  | _ :: _, [], _ => rfl
  | a :: as, b :: bs, h => by
    have h0 : f a b = some (g a b) := h 0 (by simp) (by simp)
    have hr := map2?_ok as bs fun i hi hi' => h (i + 1) (by simpa using hi) (by simpa using hi')
    simp only [map2?, h0, hr]; rfl

theorem laneWiseInt {I : Impl 32} {op : I.V → I.V → Option I.V} {f : BitVec 32 → BitVec 32 → Option (BitVec 32)} {g : Int → Int → Int}
    {ok : Int → Int → Prop} (hl : LenLaw I.N I.lanes) (h : BinLaw I.lanes op f)
    (hf : ∀ x y, ok x.toInt y.toInt → ∃ z, f x y = some z ∧ z.toInt = g x.toInt y.toInt) : LaneWiseInt I op g ok := by
  intro a b hok
  let g' : BitVec 32 → BitVec 32 → BitVec 32 := fun x y => (f x y).getD 0
  obtain ⟨v, h1, h2⟩ := h a b _ (map2?_ok (g := g') (I.lanes a) (I.lanes b) fun i hi hi' => by
    obtain ⟨z, hz, _⟩ := hf _ _ (hok i (by rw [← hl a]; exact hi))
    have hz : f ((I.lanes a).getD i 0) ((I.lanes b).getD i 0) = some z := hz
    simp only [g', hz]; rfl)
  exact ⟨v, h1, fun i hi => by
    obtain ⟨z, hz, e⟩ := hf _ _ (hok i hi)
    have : lane I v i = g' (lane I a i) (lane I b i) := by
      simp only [lane, h2]
      exact zip_getD g' 0 0 0 _ _ i (by rw [hl]; exact hi) (by rw [hl]; exact hi)
    rw [this, ← e]
    show ((f (lane I a i) (lane I b i)).getD 0).toInt = _
    rw [show f (lane I a i) (lane I b i) = some z from hz]; rfl⟩

theorem bcast_lane {I : Impl w} {E : FEnv} (h : BcastLaw I.N I.lanes (I.bcast E)) (x : BitVec w) (i : Nat) (hi : i < I.N) :
    lane I (I.bcast E x) i = x := by
  simp only [lane, h x, List.getD_eq_getElem?_getD, List.getElem?_replicate, hi]; rfl

end

/-! ### C44 -/

theorem floatOps_add (c : Cfg) (n : Nat) (E : FEnv) : (floatOps c n).add E = fun x y => some (E.f32.add x y) := by
  cases c <;> simp only [floatOps] <;> (try split_ifs) <;> rfl
theorem floatOps_sub (c : Cfg) (n : Nat) (E : FEnv) : (floatOps c n).sub E = fun x y => some (E.f32.sub x y) := by
  cases c <;> simp only [floatOps] <;> (try split_ifs) <;> rfl
theorem floatOps_mul (c : Cfg) (n : Nat) (E : FEnv) : (floatOps c n).mul E = fun x y => some (E.f32.mul x y) := by
  cases c <;> simp only [floatOps] <;> (try split_ifs) <;> rfl
theorem floatOps_mulA (c : Cfg) (n : Nat) (E : FEnv) : (floatOps c n).mulA E = fun x y => some (E.f32.mul x y) := by
  cases c <;> simp only [floatOps] <;> (try split_ifs) <;> rfl
theorem doubleOps_add (c : Cfg) (n : Nat) (E : FEnv) : (doubleOps c n).add E = fun x y => some (E.f64.add x y) := by
  cases c <;> simp only [doubleOps] <;> (try split_ifs) <;> rfl
theorem doubleOps_sub (c : Cfg) (n : Nat) (E : FEnv) : (doubleOps c n).sub E = fun x y => some (E.f64.sub x y) := by
  cases c <;> simp only [doubleOps] <;> (try split_ifs) <;> rfl
theorem doubleOps_mul (c : Cfg) (n : Nat) (E : FEnv) : (doubleOps c n).mul E = fun x y => some (E.f64.mul x y) := by
  cases c <;> simp only [doubleOps] <;> (try split_ifs) <;> rfl
theorem intOps_add (c : Cfg) (n : Nat) (E : FEnv) : (intOps c n).add E = iadd := by
  cases c <;> simp only [intOps] <;> (try split_ifs) <;> rfl
theorem intOps_sub (c : Cfg) (n : Nat) (E : FEnv) : (intOps c n).sub E = isub := by
  cases c <;> simp only [intOps] <;> (try split_ifs) <;> rfl
theorem intOps_mul (c : Cfg) (n : Nat) (E : FEnv) : (intOps c n).mul E = imul := by
  cases c <;> simp only [intOps] <;> (try split_ifs) <;> rfl
theorem intOps_mulA (c : Cfg) (n : Nat) (E : FEnv) : (intOps c n).mulA E = imul := by
  cases c <;> simp only [intOps] <;> (try split_ifs) <;> rfl

/-- C44 for `float`: addition, subtraction and multiplication, on each target and for each arity, with correct rounding (the operations
    in `E`). -/
theorem C44_float (c : Cfg) (e : Entry 32) (he : e ∈ floatVecs c) (E : FEnv) :
    LaneWise e.impl (e.impl.add E) E.f32.add ∧ LaneWise e.impl (e.impl.sub E) E.f32.sub ∧ LaneWise e.impl (e.impl.mul E) E.f32.mul ∧
      LaneWise e.impl (e.impl.addA E) E.f32.add ∧ LaneWise e.impl (e.impl.subA E) E.f32.sub ∧
      LaneWise e.impl (e.impl.mulA E) E.f32.mul := by
  have A := float_arith c e he
  exact ⟨laneWise A.len (floatOps_add c _ E ▸ A.add E), laneWise A.len (floatOps_sub c _ E ▸ A.sub E),
    laneWise A.len (floatOps_mul c _ E ▸ A.mul E), laneWise A.len (floatOps_add c _ E ▸ A.addA E),
    laneWise A.len (floatOps_sub c _ E ▸ A.subA E), laneWise A.len (floatOps_mulA c _ E ▸ A.mulA E)⟩

/-- C44 for `double`. Missing: `*=` on QPX (C44_false). -/
theorem C44_double_partial (c : Cfg) (e : Entry 64) (he : e ∈ doubleVecs c) (E : FEnv) :
    LaneWise e.impl (e.impl.add E) E.f64.add ∧ LaneWise e.impl (e.impl.sub E) E.f64.sub ∧ LaneWise e.impl (e.impl.mul E) E.f64.mul ∧
      LaneWise e.impl (e.impl.addA E) E.f64.add ∧ LaneWise e.impl (e.impl.subA E) E.f64.sub ∧
      ((c = .qpx → e.impl.N ≤ 2) → LaneWise e.impl (e.impl.mulA E) E.f64.mul) := by
  have A := double_arith c e he
  refine ⟨laneWise A.len (doubleOps_add c _ E ▸ A.add E), laneWise A.len (doubleOps_sub c _ E ▸ A.sub E),
    laneWise A.len (doubleOps_mul c _ E ▸ A.mul E), laneWise A.len (doubleOps_add c _ E ▸ A.addA E),
    laneWise A.len (doubleOps_sub c _ E ▸ A.subA E), fun hc => laneWise A.len ?_⟩
  have := A.mulA E
  cases c <;> simp only [doubleOps] at this <;> try exact this
  rw [if_pos (hc rfl)] at this
  exact this

/-- What `int` operations compute, and when they are defined. -/
theorem iadd_toInt (x y : BitVec 32) (h : inInt (x.toInt + y.toInt) = true) : ∃ z, iadd x y = some z ∧ z.toInt = x.toInt + y.toInt := by
  refine ⟨x + y, by simp only [iadd, h, if_true], ?_⟩
  simp only [inInt, Bool.and_eq_true, decide_eq_true_eq] at h
  rw [BitVec.toInt_add]
  exact Int.bmod_eq_of_le (by omega) (by omega)
theorem isub_toInt (x y : BitVec 32) (h : inInt (x.toInt - y.toInt) = true) : ∃ z, isub x y = some z ∧ z.toInt = x.toInt - y.toInt := by
  refine ⟨x - y, by simp only [isub, h, if_true], ?_⟩
  simp only [inInt, Bool.and_eq_true, decide_eq_true_eq] at h
  rw [BitVec.toInt_sub]
  exact Int.bmod_eq_of_le (by omega) (by omega)
theorem imul_toInt (x y : BitVec 32) (h : inInt (x.toInt * y.toInt) = true) : ∃ z, imul x y = some z ∧ z.toInt = x.toInt * y.toInt := by
  refine ⟨x * y, by simp only [imul, h, if_true], ?_⟩
  simp only [inInt, Bool.and_eq_true, decide_eq_true_eq] at h
  rw [BitVec.toInt_mul]
  exact Int.bmod_eq_of_le (by omega) (by omega)

/-- C44 for `int`: addition, subtraction and multiplication on all targets. Division: C47. -/
theorem C44_int (c : Cfg) (e : Entry 32) (he : e ∈ intVecs c) (E : FEnv) :
    LaneWiseInt e.impl (e.impl.add E) (· + ·) (fun x y => inInt (x + y)) ∧
      LaneWiseInt e.impl (e.impl.sub E) (· - ·) (fun x y => inInt (x - y)) ∧
      LaneWiseInt e.impl (e.impl.mul E) (· * ·) (fun x y => inInt (x * y)) ∧
      LaneWiseInt e.impl (e.impl.addA E) (· + ·) (fun x y => inInt (x + y)) ∧
      LaneWiseInt e.impl (e.impl.subA E) (· - ·) (fun x y => inInt (x - y)) ∧
      LaneWiseInt e.impl (e.impl.mulA E) (· * ·) (fun x y => inInt (x * y)) := by
  have A := int_arith c e he
  exact ⟨laneWiseInt A.len (intOps_add c _ E ▸ A.add E) iadd_toInt, laneWiseInt A.len (intOps_sub c _ E ▸ A.sub E) isub_toInt,
    laneWiseInt A.len (intOps_mul c _ E ▸ A.mul E) imul_toInt, laneWiseInt A.len (intOps_add c _ E ▸ A.addA E) iadd_toInt,
    laneWiseInt A.len (intOps_sub c _ E ▸ A.subA E) isub_toInt, laneWiseInt A.len (intOps_mulA c _ E ▸ A.mulA E) imul_toInt⟩

/-- Targets and arities for which `float` division is correctly rounded. All others multiply by an approximate reciprocal. -/
def exactDiv (c : Cfg) (n : Nat) : Bool :=
  decide (n ≤ 2) || match c with
    | .scalar | .qpx | .sse | .sse2 | .sse41 => true
    | .mic => decide (n ≤ 8)
    | .avx512f | .avx | .avx2 => decide (n ≤ 4)
    | .neon | .neon_lp64 | .neon_prec | .neon_prec_lp64 => false

/-- Reciprocal used by the other ones. -/
def reciprocal (c : Cfg) (n : Nat) (F : FOps 32) : BitVec 32 → BitVec 32 :=
  match c with
  | .neon | .neon_lp64 => neonRecip F
  | .neon_prec | .neon_prec_lp64 => neonRecipPrec F
  | .mic => F.rcp23
  | .avx512f => if n ≤ 8 then F.rcp else F.rcp14
  | _ => F.rcp

theorem floatOps_div (c : Cfg) (n : Nat) (E : FEnv) : (floatOps c n).div E =
    fun x y => some (if exactDiv c n then E.f32.div x y else E.f32.mul x (reciprocal c n E.f32 y)) := by
  by_cases h2 : n ≤ 2 <;> by_cases h4 : n ≤ 4 <;> by_cases h8 : n ≤ 8 <;> first
    | (exfalso; omega)
    | (cases c <;> simp only [floatOps, exactDiv, reciprocal, h2, h4, h8, decide_true, decide_false, Bool.true_or, Bool.false_or,
        if_true, if_false, Bool.false_eq_true] <;> rfl)

theorem floatOps_divA (c : Cfg) (n : Nat) (E : FEnv) : (floatOps c n).divA E = (floatOps c n).div E := by
  cases c <;> simp only [floatOps] <;> (try split_ifs) <;> rfl

/-- C44 for division of `float`s: lane by lane, exact or by means of a reciprocal. -/
theorem C44_float_div (c : Cfg) (e : Entry 32) (he : e ∈ floatVecs c) (E : FEnv) :
    LaneWise e.impl (e.impl.div E) (fun x y => if exactDiv c e.impl.N then E.f32.div x y else
        E.f32.mul x (reciprocal c e.impl.N E.f32 y)) ∧
      LaneWise e.impl (e.impl.divA E) (fun x y => if exactDiv c e.impl.N then E.f32.div x y else
        E.f32.mul x (reciprocal c e.impl.N E.f32 y)) := by
  have A := float_arith c e he
  exact ⟨laneWise A.len (floatOps_div c _ E ▸ A.div E), laneWise A.len (floatOps_div c _ E ▸ floatOps_divA c _ E ▸ A.divA E)⟩

/-- C44 for division of `double`s: correctly rounded, unless software division is used on QPX. -/
theorem C44_double_div (c : Cfg) (e : Entry 64) (he : e ∈ doubleVecs c) (E : FEnv) :
    LaneWise e.impl (e.impl.div E) (if c = .qpx ∧ 2 < e.impl.N then E.f64.swdiv else E.f64.div) ∧
      LaneWise e.impl (e.impl.divA E) (if c = .qpx ∧ 2 < e.impl.N then E.f64.swdiv else E.f64.div) := by
  have A := double_arith c e he
  have h := A.div E
  have h' := A.divA E
  cases c <;> simp only [doubleOps] at h h' <;> first
    | (rw [if_neg (by simp)]; exact ⟨laneWise A.len h, laneWise A.len h'⟩)
    | skip
  by_cases hn : e.impl.N ≤ 2
  · rw [if_neg (by omega)]
    rw [if_pos hn] at h h'
    exact ⟨laneWise A.len h, laneWise A.len h'⟩
  · rw [if_pos ⟨rfl, by omega⟩]
    rw [if_neg hn] at h h'
    exact ⟨laneWise A.len h, laneWise A.len h'⟩

/-- Square roots of all lanes. -/
def LaneWise1 {w : Nat} (I : Impl w) (op : I.V → Option I.V) (f : BitVec w → BitVec w) : Prop :=
  ∀ a, ∃ v, op a = some v ∧ ∀ i < I.N, lane I v i = f (lane I a i)

theorem map1?_total {w : Nat} {f : BitVec w → BitVec w} : ∀ as : List (BitVec w), map1? (fun x => some (f x)) as = some (as.map f)
  | [] => rfl
  | _ :: as => by simp only [map1?, map1?_total as]; rfl

theorem map_getD {α β : Type} (f : α → β) (x : α) (y : β) : ∀ (as : List α) (i : Nat), i < as.length →
    (as.map f).getD i y = f (as.getD i x)
  | _ :: _, 0, _ => rfl
  | _ :: as, i + 1, h => map_getD f x y as i (Nat.lt_of_succ_lt_succ h)

theorem laneWise1 {w : Nat} {I : Impl w} {op : I.V → Option I.V} {f : BitVec w → BitVec w} (hl : LenLaw I.N I.lanes)
    (h : UnLaw I.lanes op fun x => some (f x)) : LaneWise1 I op f := by
  intro a
  obtain ⟨v, h1, h2⟩ := h a _ (map1?_total _)
  exact ⟨v, h1, fun i hi => by
    simp only [lane, h2]
    exact map_getD f 0 0 _ i (by rw [hl]; exact hi)⟩

/-- Is NEON used for this arity? -/
def usesNeon (c : Cfg) (n : Nat) : Bool :=
  decide (2 < n) && match c with
    | .neon | .neon_lp64 | .neon_prec | .neon_prec_lp64 => true
    | _ => false

/-- C44 for square roots of `float`s: correctly rounded, unless NEON is used. -/
theorem C44_float_sqrt (c : Cfg) (e : Entry 32) (he : e ∈ floatVecs c) (E : FEnv) (h : usesNeon c e.impl.N = false) :
    LaneWise1 e.impl (e.impl.sqrt E) E.f32.sqrt := by
  have A := float_arith c e he
  refine laneWise1 A.len ?_
  have h' := A.sqrt E
  cases c <;> simp only [floatOps, usesNeon, Bool.and_true, decide_eq_false_iff_not] at h h' <;> revert h' <;> split_ifs <;>
    first | exact id | omega

/-- C44 for square roots of `float`s, with NEON: `a * (1 / sqrt a)`, after one or two steps of Newton's method. -/
theorem C44_float_sqrt_neon (c : Cfg) (e : Entry 32) (he : e ∈ floatVecs c) (E : FEnv) (h : usesNeon c e.impl.N = true) :
    LaneWise1 e.impl (e.impl.sqrt E) (fun x => E.f32.mul x ((if c = .neon_prec ∨ c = .neon_prec_lp64 then neonRsqrtPrec else neonRsqrt)
      E.f32 x)) := by
  have A := float_arith c e he
  refine laneWise1 A.len ?_
  have h' := A.sqrt E
  have h2 : ¬ e.impl.N ≤ 2 := by
    intro hn
    have : decide (2 < e.impl.N) = false := decide_eq_false (by omega)
    simp only [usesNeon, this, Bool.false_and, Bool.false_eq_true] at h
  cases c <;> simp only [floatOps, usesNeon, Bool.and_false, Bool.false_eq_true, if_neg h2] at h h' <;> first
    | exact h.elim
    | simpa using h'

/-- C44 for square roots of `double`s. -/
theorem C44_double_sqrt (c : Cfg) (e : Entry 64) (he : e ∈ doubleVecs c) (E : FEnv) :
    LaneWise1 e.impl (e.impl.sqrt E) (if c = .qpx ∧ 2 < e.impl.N then E.f64.swsqrt else E.f64.sqrt) := by
  have A := double_arith c e he
  have h := A.sqrt E
  refine laneWise1 A.len ?_
  cases c <;> simp only [doubleOps] at h <;> first
    | (rw [if_neg (by simp)]; exact h)
    | skip
  by_cases hn : e.impl.N ≤ 2
  · rw [if_neg (by omega)]
    rwa [if_pos hn] at h
  · rw [if_pos ⟨rfl, by omega⟩]
    rwa [if_neg hn] at h

/-- `x / sqrt(y)` and `x /= sqrt(y)`, `float`: division by the square root, or multiplication by an approximation of its reciprocal. -/
def divSqrtF (c : Cfg) (n : Nat) (F : FOps 32) (x y : BitVec 32) : BitVec 32 :=
  if n ≤ 2 then F.div x (F.sqrt y)
  else match c with
    | .scalar | .qpx => F.div x (F.sqrt y)
    | .neon | .neon_lp64 => F.mul x (neonRecip F (F.mul y (neonRsqrt F y)))
    | .neon_prec | .neon_prec_lp64 => F.mul x (neonRecipPrec F (F.mul y (neonRsqrtPrec F y)))
    | .mic => if n ≤ 8 then F.div x (F.sqrt y) else F.mul x (F.rsqrt23 y)
    | .avx512f => if n ≤ 8 then F.mul x (F.rsqrt y) else F.mul x (F.rsqrt14 y)
    | .avx | .avx2 | .sse | .sse2 | .sse41 => F.mul x (F.rsqrt y)

theorem sameLanes {w : Nat} {V : Type} {lanes : V → List (BitVec w)} {f g : V → Option V} {h : BitVec w → Option (BitVec w)}
    (hf : UnLaw lanes f h) (hg : UnLaw lanes g h) (ht : ∀ x, (h x).isSome) (a : V) :
    ∃ v v', f a = some v ∧ g a = some v' ∧ lanes v = lanes v' := by
  have : ∀ xs : List (BitVec w), ∃ r, map1? h xs = some r := by
    intro xs
    induction xs with
    | nil => exact ⟨[], rfl⟩
    | cons x xs ih =>
      obtain ⟨r, hr⟩ := ih
      obtain ⟨y, hy⟩ := Option.isSome_iff_exists.1 (ht x)
      exact ⟨y :: r, by simp only [map1?, hr, hy]; rfl⟩
  obtain ⟨r, hr⟩ := this (lanes a)
  obtain ⟨v, h1, h2⟩ := hf a r hr
  obtain ⟨v', h3, h4⟩ := hg a r hr
  exact ⟨v, v', h1, h3, h2.trans h4.symm⟩

/-- C44: `short_vec(sqrt(v))` and `v.sqrt()` are the same. -/
theorem C44_sqrt_member (c : Cfg) (E : FEnv) :
    (∀ e ∈ floatVecs c, ∀ a, ∃ v v', e.impl.sqrt E a = some v ∧ e.impl.sqrtM E a = some v' ∧ e.impl.lanes v = e.impl.lanes v') ∧
    (∀ e ∈ doubleVecs c, ∀ a, ∃ v v', e.impl.sqrt E a = some v ∧ e.impl.sqrtM E a = some v' ∧ e.impl.lanes v = e.impl.lanes v') ∧
    (∀ e ∈ intVecs c, ∀ a, ∃ v v', e.impl.sqrt E a = some v ∧ e.impl.sqrtM E a = some v' ∧ e.impl.lanes v = e.impl.lanes v') := by
  refine ⟨fun e he a => ?_, fun e he a => ?_, fun e he a => ?_⟩
  · have A := float_arith c e he
    refine sameLanes (A.sqrt E) (A.sqrtM E) (fun x => ?_) a
    generalize e.impl.N = n
    cases c <;> simp only [floatOps] <;> (try split_ifs) <;> rfl
  · have A := double_arith c e he
    refine sameLanes (A.sqrt E) (A.sqrtM E) (fun x => ?_) a
    generalize e.impl.N = n
    cases c <;> simp only [doubleOps] <;> (try split_ifs) <;> rfl
  · have A := int_arith c e he
    refine sameLanes (A.sqrt E) (A.sqrtM E) (fun x => ?_) a
    generalize e.impl.N = n
    cases c <;> simp only [intOps] <;> (try split_ifs) <;> rfl

/-- C44: `sqrt(a) / b` for vectors and numbers `b`, in terms of what division and square roots do. -/
theorem C44_sqrtDiv {w : Nat} (e : Entry w) (E : FEnv) (D : BitVec w → BitVec w → BitVec w) (S : BitVec w → BitVec w)
    (hD : LaneWise e.impl (e.impl.div E) D) (hS : LaneWise1 e.impl (e.impl.sqrt E) S) (hb : BcastLaw e.impl.N e.impl.lanes (e.impl.bcast E))
    (a b : e.impl.V) (x : BitVec w) :
    (∃ v, e.impl.sqrtDiv E a b = some v ∧ ∀ i < e.impl.N, lane e.impl v i = D (S (lane e.impl a i)) (lane e.impl b i)) ∧
      ∃ v, e.impl.sqrtDivR E a x = some v ∧ ∀ i < e.impl.N, lane e.impl v i = D (S (lane e.impl a i)) x := by
  obtain ⟨r, h1, h2⟩ := hS a
  obtain ⟨v, h3, h4⟩ := hD r b
  obtain ⟨v', h5, h6⟩ := hD r (e.impl.bcast E x)
  refine ⟨⟨v, by rw [Impl.sqrtDiv, h1]; exact h3, fun i hi => by rw [h4 i hi, h2 i hi]⟩,
    v', by rw [Impl.sqrtDivR, h1]; exact h5, fun i hi => by rw [h6 i hi, h2 i hi, bcast_lane hb x i hi]⟩

/-- C44: `a / sqrt(b)` and `a /= sqrt(b)`. -/
theorem C44_float_divSqrt (c : Cfg) (e : Entry 32) (he : e ∈ floatVecs c) (E : FEnv) :
    LaneWise e.impl (e.impl.divSqrt E) (divSqrtF c e.impl.N E.f32) ∧
      LaneWise e.impl (e.impl.divSqrtA E) (divSqrtF c e.impl.N E.f32) := by
  have A := float_arith c e he
  have h : (floatOps c e.impl.N).divSqrt E = fun x y => some (divSqrtF c e.impl.N E.f32 x y) := by
    generalize e.impl.N = n
    by_cases h2 : n ≤ 2 <;> by_cases h4 : n ≤ 4 <;> by_cases h8 : n ≤ 8 <;> first
      | (exfalso; omega)
      | (cases c <;> simp only [floatOps, divSqrtF, h2, h4, h8, if_true, if_false])
  exact ⟨laneWise A.len (h ▸ A.divSqrt E), laneWise A.len (h ▸ A.divSqrtA E)⟩

/-- C44, operators with a number on the left (short_vec.hpp:31-53): `float`. -/
theorem C44_float_left (c : Cfg) (e : Entry 32) (he : e ∈ floatVecs c) (E : FEnv) (x : BitVec 32) (b : e.impl.V) :
    (∃ v, e.impl.addL E x b = some v ∧ ∀ i < e.impl.N, lane e.impl v i = E.f32.add x (lane e.impl b i)) ∧
      (∃ v, e.impl.subL E x b = some v ∧ ∀ i < e.impl.N, lane e.impl v i = E.f32.sub x (lane e.impl b i)) ∧
      (∃ v, e.impl.mulL E x b = some v ∧ ∀ i < e.impl.N, lane e.impl v i = E.f32.mul x (lane e.impl b i)) ∧
      ∃ v, e.impl.divL E x b = some v ∧ ∀ i < e.impl.N, lane e.impl v i =
        if exactDiv c e.impl.N then E.f32.div x (lane e.impl b i) else E.f32.mul x (reciprocal c e.impl.N E.f32 (lane e.impl b i)) := by
  have B := (float_arith c e he).bcast E
  obtain ⟨h1, h2, h3, _⟩ := C44_float c e he E
  have h4 := (C44_float_div c e he E).1
  refine ⟨?_, ?_, ?_, ?_⟩
  · obtain ⟨v, e1, e2⟩ := h1 (e.impl.bcast E x) b
    exact ⟨v, e1, fun i hi => by rw [e2 i hi, bcast_lane B x i hi]⟩
  · obtain ⟨v, e1, e2⟩ := h2 (e.impl.bcast E x) b
    exact ⟨v, e1, fun i hi => by rw [e2 i hi, bcast_lane B x i hi]⟩
  · obtain ⟨v, e1, e2⟩ := h3 (e.impl.bcast E x) b
    exact ⟨v, e1, fun i hi => by rw [e2 i hi, bcast_lane B x i hi]⟩
  · obtain ⟨v, e1, e2⟩ := h4 (e.impl.bcast E x) b
    exact ⟨v, e1, fun i hi => by rw [e2 i hi, bcast_lane B x i hi]⟩

/-- C44, operators with a number on the left: `double`. -/
theorem C44_double_left (c : Cfg) (e : Entry 64) (he : e ∈ doubleVecs c) (E : FEnv) (x : BitVec 64) (b : e.impl.V) :
    (∃ v, e.impl.addL E x b = some v ∧ ∀ i < e.impl.N, lane e.impl v i = E.f64.add x (lane e.impl b i)) ∧
      (∃ v, e.impl.subL E x b = some v ∧ ∀ i < e.impl.N, lane e.impl v i = E.f64.sub x (lane e.impl b i)) ∧
      (∃ v, e.impl.mulL E x b = some v ∧ ∀ i < e.impl.N, lane e.impl v i = E.f64.mul x (lane e.impl b i)) ∧
      ∃ v, e.impl.divL E x b = some v ∧ ∀ i < e.impl.N, lane e.impl v i =
        (if c = .qpx ∧ 2 < e.impl.N then E.f64.swdiv else E.f64.div) x (lane e.impl b i) := by
  have B := (double_arith c e he).bcast E
  obtain ⟨h1, h2, h3, _⟩ := C44_double_partial c e he E
  have h4 := (C44_double_div c e he E).1
  refine ⟨?_, ?_, ?_, ?_⟩
  · obtain ⟨v, e1, e2⟩ := h1 (e.impl.bcast E x) b
    exact ⟨v, e1, fun i hi => by rw [e2 i hi, bcast_lane B x i hi]⟩
  · obtain ⟨v, e1, e2⟩ := h2 (e.impl.bcast E x) b
    exact ⟨v, e1, fun i hi => by rw [e2 i hi, bcast_lane B x i hi]⟩
  · obtain ⟨v, e1, e2⟩ := h3 (e.impl.bcast E x) b
    exact ⟨v, e1, fun i hi => by rw [e2 i hi, bcast_lane B x i hi]⟩
  · obtain ⟨v, e1, e2⟩ := h4 (e.impl.bcast E x) b
    exact ⟨v, e1, fun i hi => by rw [e2 i hi, bcast_lane B x i hi]⟩

/-- C44 is false: on QPX, `*=` adds, for each arity above 2 and any two numbers whose sum is not their product. -/
theorem C44_false (E : FEnv) (x y : BitVec 64) (h : E.f64.add x y ≠ E.f64.mul x y) (e : Entry 64) (he : e ∈ doubleVecs .qpx)
    (hn : 2 < e.impl.N) : ¬ LaneWise e.impl (e.impl.mulA E) E.f64.mul := by
  have A := double_arith .qpx e he
  have h' := A.mulA E
  simp only [doubleOps, if_neg (show ¬ e.impl.N ≤ 2 by omega)] at h'
  have hq := laneWise A.len h'
  intro hm
  obtain ⟨v, e1, e2⟩ := hm (e.impl.bcast E x) (e.impl.bcast E y)
  obtain ⟨v', e1', e2'⟩ := hq (e.impl.bcast E x) (e.impl.bcast E y)
  rw [e1] at e1'
  cases e1'
  have := (e2 0 (by omega)).symm.trans (e2' 0 (by omega))
  rw [bcast_lane (A.bcast E) x 0 (by omega), bcast_lane (A.bcast E) y 0 (by omega)] at this
  exact h this.symm

/-- Operations for examples: arithmetic on the bits. -/
def FOps.demo (w : Nat) : FOps w where
  add x y := x + y
  sub x y := x - y
  mul x y := x * y
  div x y := BitVec.ofNat w (x.toNat / y.toNat)
  sqrt x := x
  lt x y := decide (x.toNat < y.toNat)
  le x y := decide (x.toNat ≤ y.toNat)
  eq x y := x == y
  gt x y := decide (x.toNat > y.toNat)
  ge x y := decide (x.toNat ≥ y.toNat)
  rcp x := x
  rsqrt x := x
  rcp14 x := x
  rsqrt14 x := x
  rcp23 x := x
  rsqrt23 x := x
  recpe x := x
  recps x _ := x
  rsqrte x := x
  rsqrts x _ := x
  absLe x y := decide (x.toNat ≤ y.toNat)
  swdiv x y := BitVec.ofNat w (x.toNat / y.toNat)
  swsqrt x := x
  qrsqrte x := x
  ofInt i := i.setWidth w
  toIntR x := x.setWidth 32
  toIntT x := x.setWidth 32
  toSize x := x.toNat
  zero := 0
  one := 1

def FEnv.demo : FEnv := ⟨FOps.demo 32, FOps.demo 64⟩

/-- The hypotheses of C44_false are satisfiable: there are such classes, 2 + 3 ≠ 2 * 3. -/
example : ∃ e ∈ doubleVecs .qpx, 2 < e.impl.N ∧ FEnv.demo.f64.add 2 3 ≠ FEnv.demo.f64.mul 2 3 :=
  ⟨⟨QpxDouble4.impl, none, none⟩, by simp only [doubleVecs, List.mem_cons, true_or, or_true], by decide, by decide⟩

/-- Non-trivial instance of C44_float: lane 5 of the sum of two vectors with 8 lanes on AVX. -/
example : (⟨AvxFloat8.impl_avx, some AvxFloat8.cmp_avx, some .avx⟩ : Entry 32) ∈ floatVecs .avx ∧ AvxFloat8.impl_avx.N = 8 :=
  ⟨by simp only [floatVecs, List.mem_cons, true_or, or_true], rfl⟩

/-! ### C45 -/

/-- `<`, `<=`, `==`, `>`, `>=` -/
inductive Rel | lt | le | eq | gt | ge

/-- Comparison of numbers. -/
def FOps.rel {w : Nat} (F : FOps w) : Rel → BitVec w → BitVec w → Bool
  | .lt => F.lt
  | .le => F.le
  | .eq => F.eq
  | .gt => F.gt
  | .ge => F.ge

/-- Comparison of vectors. -/
def Cmp.rel {w : Nat} {I : Impl w} (C : Cmp I) (E : FEnv) : Rel → I.V → I.V → Option C.M
  | .lt => C.lt E
  | .le => C.le E
  | .eq => C.eq E
  | .gt => C.gt E
  | .ge => C.ge E

/-- The mask `m` selects exactly those lanes for which `sel` is true: replaces exactly those lanes if blended (by the member function and by
    the free function), `get` tells if a lane is selected, `any` tells if there is one, `count_mask` counts these. -/
def Selects {w : Nat} {I : Impl w} (C : Cmp I) (E : FEnv) (F : FOps w) (m : C.M) (sel : Nat → Bool) : Prop :=
  (∀ x y, ∀ i < I.N, lane I (C.blend E x m y) i = if sel i then lane I y i else lane I x i) ∧
  (∀ x y, ∀ i < I.N, lane I (C.blendFn E x y m) i = if sel i then lane I y i else lane I x i) ∧
  (∀ i < I.N, C.get E m (BitVec.ofNat 32 i) = some (sel i)) ∧
  (C.any E m = true ↔ ∃ i < I.N, sel i = true) ∧
  C.countMask E F m = some ((List.range I.N).countP sel)

section
variable {w : Nat}

theorem select_getD : ∀ (bs : List Bool) (xs ys : List (BitVec w)) (i : Nat), i < bs.length → i < xs.length → i < ys.length →
    (select bs xs ys).getD i 0 = if bs.getD i false then ys.getD i 0 else xs.getD i 0
  | _ :: _, _ :: _, _ :: _, 0, _, _, _ => rfl
  | _ :: bs, _ :: xs, _ :: ys, i + 1, h, h', h'' =>
    select_getD bs xs ys i (Nat.lt_of_succ_lt_succ h) (Nat.lt_of_succ_lt_succ h') (Nat.lt_of_succ_lt_succ h'')

theorem truthy_pat (h : 1 < w) (b : Bool) : truthy (pat w b) = b := by
  cases b
  · simp [pat, truthy]
  · simp only [pat, truthy, if_true, bne_iff_ne, ne_eq]
    intro hz
    have := congrArg (fun x => x.getLsbD 1) hz
    simp [h] at this

theorem get_ok {I : Impl w} {C : Cmp I} {F : FEnv → FOps w} (hw : 1 < w) (hN : I.N ≤ 32) (L : CmpLaws C F) (E : FEnv) (m : C.M)
    (bs : List Bool) (hl : bs.length = I.N) (hr : C.kind.Rep I.lanes m bs) (i : Nat) (hi : i < I.N) :
    C.get E m (BitVec.ofNat 32 i) = some (bs.getD i false) := by
  have hx := L.index E
  obtain ⟨M, kind, lt, le, eq, gt, ge, blend, vany, index⟩ := C
  change getOf (index E) kind m _ = _
  change MaskKind.Rep I.lanes kind m bs at hr
  change IndexLaw I.N I.lanes (index E) at hx
  cases kind with
  | bits b =>
    have hb : (BitVec.ofNat 32 i).toInt = i := by
      rw [BitVec.toInt_eq_toNat_cond, BitVec.toNat_ofNat, Nat.mod_eq_of_lt (by omega), if_pos (by omega)]
    simp only [getOf, hb]
    rw [if_pos (by omega)]
    congr 1
    rw [← hr.2 i]
    have : (promote m >>> (i : Int).toNat &&& 1 != 0) = (promote m >>> (i : Int).toNat).getLsbD 0 := bitTest _ 0 (by decide)
    rw [this, BitVec.getLsbD_ushiftRight, promote_get]
    simp [show i < 32 by omega]
  | vec =>
    simp only [getOf, hx m i hi]
    change I.lanes m = bs.map (pat w) at hr
    rw [hr, map_getD (pat w) false 0 bs i (by omega)]
    exact congrArg some (truthy_pat hw _)

theorem count_ok {I : Impl w} {C : Cmp I} {F : FEnv → FOps w} (L : CmpLaws C F) (E : FEnv) (v : I.V) (G : FOps w) (sel : Nat → Bool)
    (h0 : G.toSize G.zero = 0) (h1 : G.toSize G.one = 1)
    (hv : ∀ i < I.N, lane I v i = if sel i then G.one else G.zero) :
    ∀ n i s, i + n = I.N → C.countLoop E G v n i s = some (s + (List.range' i n).countP sel)
  | 0, i, s, _ => rfl
  | n + 1, i, s, h => by
    have hx : C.index E v (BitVec.ofNat 32 i) = some (lane I v i) := L.index E v i (by omega)
    simp only [Cmp.countLoop, hx, bind, Option.bind]
    rw [count_ok L E v G sel h0 h1 hv n (i + 1) _ (by omega), hv i (by omega), List.range'_succ, List.countP_cons]
    cases sel i
    · simp [h0]
    · simp [h1]; omega

theorem selects {I : Impl w} {C : Cmp I} {F : FEnv → FOps w} (hw : 1 < w) (hN : I.N ≤ 32) (hlen : LenLaw I.N I.lanes)
    (hbc : ∀ E, BcastLaw I.N I.lanes (I.bcast E)) (L : CmpLaws C F)
    (E : FEnv) (G : FOps w) (h0 : G.toSize G.zero = 0) (h1 : G.toSize G.one = 1) (m : C.M) (bs : List Bool) (hl : bs.length = I.N)
    (hr : C.kind.Rep I.lanes m bs) : Selects C E G m fun i => bs.getD i false := by
  have hb : ∀ x y, ∀ i < I.N, lane I (C.blend E x m y) i = if bs.getD i false then lane I y i else lane I x i := by
    intro x y i hi
    simp only [lane, L.blend E x m y bs hl hr]
    exact select_getD _ _ _ i (by omega) (by rw [hlen]; exact hi) (by rw [hlen]; exact hi)
  have ha : C.any E m = true ↔ ∃ i < I.N, bs.getD i false = true := by
    rw [L.any E m bs hl hr, List.any_eq_true]
    constructor
    · rintro ⟨b, hb, ht⟩
      obtain ⟨i, hi, he⟩ := List.getElem_of_mem hb
      exact ⟨i, by omega, by simp [List.getD, hi, he]; exact ht⟩
    · rintro ⟨i, hi, ht⟩
      have hi' : i < bs.length := by omega
      exact ⟨bs[i], List.getElem_mem hi', by simpa [List.getD, hi'] using ht⟩
  refine ⟨hb, hb, fun i hi => get_ok hw hN L E m bs hl hr i hi, ha, ?_⟩
  unfold Cmp.countMask
  cases hm : C.any E m
  · simp only [Bool.false_eq_true, if_false]
    have : (List.range I.N).countP (fun i => bs.getD i false) = 0 := by
      rw [List.countP_eq_zero]
      intro i hi ht
      rw [hm] at ha
      exact Bool.false_ne_true (ha.2 ⟨i, List.mem_range.1 hi, ht⟩)
    rw [this]
  · simp only [if_true]
    rw [count_ok L E _ G (fun i => bs.getD i false) h0 h1 ?_ I.N 0 0 (by omega), List.range_eq_range', Nat.zero_add]
    intro i hi
    rw [hb _ _ i hi, bcast_lane (hbc E) _ i hi, bcast_lane (hbc E) _ i hi]

theorem rel_ok {I : Impl w} {C : Cmp I} {F : FEnv → FOps w} (L : CmpLaws C F) (E : FEnv) (r : Rel) :
    CmpLaw I.lanes C.kind (C.rel E r) ((F E).rel r) := by
  cases r
  · exact L.lt E
  · exact L.le E
  · exact L.eq E
  · exact L.gt E
  · exact L.ge E

theorem Selects.congr {I : Impl w} {C : Cmp I} {E : FEnv} {G : FOps w} {m : C.M} {s t : Nat → Bool} (h : Selects C E G m s)
    (e : ∀ i < I.N, s i = t i) : Selects C E G m t := by
  obtain ⟨h1, h2, h3, h4, h5⟩ := h
  refine ⟨fun x y i hi => e i hi ▸ h1 x y i hi, fun x y i hi => e i hi ▸ h2 x y i hi, fun i hi => e i hi ▸ h3 i hi, h4.trans ?_, ?_⟩
  · exact ⟨fun ⟨i, hi, h⟩ => ⟨i, hi, e i hi ▸ h⟩, fun ⟨i, hi, h⟩ => ⟨i, hi, (e i hi).symm ▸ h⟩⟩
  · rw [h5]
    exact congrArg some (List.countP_congr fun i hi => by rw [e i (List.mem_range.1 hi)])

theorem compare_ok {I : Impl w} {C : Cmp I} {F : FEnv → FOps w} (hw : 1 < w) (hN : I.N ≤ 32) (hlen : LenLaw I.N I.lanes)
    (hbc : ∀ E, BcastLaw I.N I.lanes (I.bcast E)) (L : CmpLaws C F)
    (E : FEnv) (h0 : (F E).toSize (F E).zero = 0) (h1 : (F E).toSize (F E).one = 1) (r : Rel) (a b : I.V) :
    ∃ m, C.rel E r a b = some m ∧ Selects C E (F E) m fun i => (F E).rel r (lane I a i) (lane I b i) := by
  obtain ⟨m, hm, hr⟩ := rel_ok L E r a b
  have hla : (I.lanes a).length = I.N := hlen a
  have hlb : (I.lanes b).length = I.N := hlen b
  refine ⟨m, hm, (selects hw hN hlen hbc L E (F E) h0 h1 m _ ?_ hr).congr fun i hi => ?_⟩
  · rw [List.length_zipWith, hla, hlb, Nat.min_self]
  · exact zip_getD _ 0 0 false _ _ i (by omega) (by omega)

end

theorem float_arity : ∀ c, ∀ e ∈ floatVecs c, e.impl.N ∈ [1, 2, 4, 8, 16, 32] := by
  intro c
  cases c <;> simp only [floatVecs, List.forall_mem_cons] <;> refine ⟨?_, ?_, ?_, ?_, ?_, ?_⟩ <;> decide
theorem double_arity : ∀ c, ∀ e ∈ doubleVecs c, e.impl.N ∈ [1, 2, 4, 8, 16, 32] := by
  intro c
  cases c <;> simp only [doubleVecs, List.forall_mem_cons] <;> refine ⟨?_, ?_, ?_, ?_, ?_, ?_⟩ <;> decide
theorem int_arity : ∀ c, ∀ e ∈ intVecs c, e.impl.N ∈ [1, 2, 4, 8, 16, 32] := by
  intro c
  cases c <;> simp only [intVecs, List.forall_mem_cons] <;> refine ⟨?_, ?_, ?_, ?_, ?_, ?_⟩ <;> decide

theorem arity_le {n : Nat} (h : n ∈ [1, 2, 4, 8, 16, 32]) : n ≤ 32 := by
  simp only [List.mem_cons, List.not_mem_nil, or_false] at h
  omega

/-- C45 for `float`: each comparison selects exactly those lanes for which it is true, wherever comparisons exist. -/
theorem C45_float (c : Cfg) (e : Entry 32) (he : e ∈ floatVecs c) (C : Cmp e.impl) (hC : e.cmp = some C) (E : FEnv) (r : Rel)
    (a b : e.impl.V) : ∃ m, C.rel E r a b = some m ∧ ∀ x y, ∀ i < e.impl.N,
      lane e.impl (C.blend E x m y) i = (if E.f32.rel r (lane e.impl a i) (lane e.impl b i) then lane e.impl y i else lane e.impl x i) ∧
      lane e.impl (C.blendFn E x y m) i =
        if E.f32.rel r (lane e.impl a i) (lane e.impl b i) then lane e.impl y i else lane e.impl x i := by
  have A := float_arith c e he
  obtain ⟨m, hm, hr⟩ := rel_ok (float_cmp c e he C hC) E r a b
  have hla : (e.impl.lanes a).length = e.impl.N := A.len a
  have hlb : (e.impl.lanes b).length = e.impl.N := A.len b
  have hl : (List.zipWith (E.f32.rel r) (e.impl.lanes a) (e.impl.lanes b)).length = e.impl.N := by
    rw [List.length_zipWith, hla, hlb, Nat.min_self]
  refine ⟨m, hm, fun x y i hi => ?_⟩
  have hb : lane e.impl (C.blend E x m y) i =
      if E.f32.rel r (lane e.impl a i) (lane e.impl b i) then lane e.impl y i else lane e.impl x i := by
    simp only [lane, (float_cmp c e he C hC).blend E x m y _ hl hr]
    rw [select_getD _ _ _ i (by omega) (by rw [A.len]; exact hi) (by rw [A.len]; exact hi)]
    rw [zip_getD _ 0 0 false _ _ i (by omega) (by omega)]
    rfl
  exact ⟨hb, hb⟩

/-- C45 for `double`. -/
theorem C45_double (c : Cfg) (e : Entry 64) (he : e ∈ doubleVecs c) (C : Cmp e.impl) (hC : e.cmp = some C) (E : FEnv) (r : Rel)
    (a b : e.impl.V) : ∃ m, C.rel E r a b = some m ∧ ∀ x y, ∀ i < e.impl.N,
      lane e.impl (C.blend E x m y) i = (if E.f64.rel r (lane e.impl a i) (lane e.impl b i) then lane e.impl y i else lane e.impl x i) ∧
      lane e.impl (C.blendFn E x y m) i =
        if E.f64.rel r (lane e.impl a i) (lane e.impl b i) then lane e.impl y i else lane e.impl x i := by
  have A := double_arith c e he
  obtain ⟨m, hm, hr⟩ := rel_ok (double_cmp c e he C hC) E r a b
  have hla : (e.impl.lanes a).length = e.impl.N := A.len a
  have hlb : (e.impl.lanes b).length = e.impl.N := A.len b
  have hl : (List.zipWith (E.f64.rel r) (e.impl.lanes a) (e.impl.lanes b)).length = e.impl.N := by
    rw [List.length_zipWith, hla, hlb, Nat.min_self]
  refine ⟨m, hm, fun x y i hi => ?_⟩
  have hb : lane e.impl (C.blend E x m y) i =
      if E.f64.rel r (lane e.impl a i) (lane e.impl b i) then lane e.impl y i else lane e.impl x i := by
    simp only [lane, (double_cmp c e he C hC).blend E x m y _ hl hr]
    rw [select_getD _ _ _ i (by omega) (by rw [A.len]; exact hi) (by rw [A.len]; exact hi)]
    rw [zip_getD _ 0 0 false _ _ i (by omega) (by omega)]
    rfl
  exact ⟨hb, hb⟩

/-- Where comparisons, masks and `blend` exist: not for vectors in NEON, MIC or QPX registers. -/
def hasFloatCmp (c : Cfg) (n : Nat) : Bool :=
  match c with
  | .neon | .neon_lp64 | .neon_prec | .neon_prec_lp64 => decide (n ≤ 2)
  | .mic => decide (n ≤ 8)
  | _ => true
def hasDoubleCmp (c : Cfg) (n : Nat) : Bool :=
  match c with
  | .qpx => decide (n ≤ 2)
  | .mic => decide (n ≤ 4)
  | _ => true

theorem C45_float_available : ∀ c, ∀ e ∈ floatVecs c, e.cmp.isSome = hasFloatCmp c e.impl.N := by
  intro c
  cases c <;> simp only [floatVecs, List.forall_mem_cons] <;> refine ⟨rfl, rfl, rfl, rfl, rfl, ?_⟩ <;>
    first | exact fun _ h => (nomatch h) | exact ⟨rfl, fun _ h => (nomatch h)⟩
theorem C45_double_available : ∀ c, ∀ e ∈ doubleVecs c, e.cmp.isSome = hasDoubleCmp c e.impl.N := by
  intro c
  cases c <;> simp only [doubleVecs, List.forall_mem_cons] <;> exact ⟨rfl, rfl, rfl, rfl, rfl, rfl, fun _ h => (nomatch h)⟩

/-- C45 is false on NEON, where `short_vec<float, 4>` has comparisons: `a == b` tells if `a < b`, so a vector is not equal to itself. -/
theorem C45_false_neon_eq (E : FEnv) (x : BitVec 32) (h : E.f32.lt x x = false) :
    NeonFloat4.opEq E (NeonFloat4.bcast E x) (NeonFloat4.bcast E x) = ⟨0, 0, 0, 0⟩ := by
  have : ∀ b, b = false → pat 32 b = 0 := fun _ h => by subst h; rfl
  change (⟨pat 32 (E.f32.lt x x), pat 32 (E.f32.lt x x), pat 32 (E.f32.lt x x), pat 32 (E.f32.lt x x)⟩ : U32x4) = _
  rw [this _ h]

example := C45_false_neon_eq FEnv.demo 7 (by decide)

/-- C45 is false on NEON: `a <= b` compares absolute values. -/
theorem C45_false_neon_le (E : FEnv) (x y : BitVec 32) (h : E.f32.absLe x y = false) :
    NeonFloat4.opLe E (NeonFloat4.bcast E x) (NeonFloat4.bcast E y) = ⟨0, 0, 0, 0⟩ := by
  have : ∀ b, b = false → pat 32 b = 0 := fun _ h => by subst h; rfl
  change (⟨pat 32 (E.f32.absLe x y), pat 32 (E.f32.absLe x y), pat 32 (E.f32.absLe x y), pat 32 (E.f32.absLe x y)⟩ : U32x4) = _
  rw [this _ h]

example := C45_false_neon_le FEnv.demo 7 3 (by decide)

/-- NEON: `<`, `>` and `>=` of `short_vec<float, 4>` are right. -/
theorem C45_neon_partial (E : FEnv) (a b : NeonFloat4.V) :
    lanes (NeonFloat4.opLt E a b) = List.zipWith (fun x y => pat 32 (E.f32.lt x y)) a.lanes b.lanes ∧
      lanes (NeonFloat4.opGt E a b) = List.zipWith (fun x y => pat 32 (E.f32.gt x y)) a.lanes b.lanes ∧
      lanes (NeonFloat4.opGe E a b) = List.zipWith (fun x y => pat 32 (E.f32.ge x y)) a.lanes b.lanes :=
  ⟨rfl, rfl, rfl⟩

/-! ### C43 -/

/-- C43 for `float`: masks which result from comparisons. 0.0 and 1.0 have to be converted to 0 and 1. -/
theorem C43_float (c : Cfg) (e : Entry 32) (he : e ∈ floatVecs c) (C : Cmp e.impl) (hC : e.cmp = some C) (E : FEnv)
    (h0 : E.f32.toSize E.f32.zero = 0) (h1 : E.f32.toSize E.f32.one = 1) (r : Rel) (a b : e.impl.V) :
    ∃ m, C.rel E r a b = some m ∧
      (∀ i < e.impl.N, C.get E m (BitVec.ofNat 32 i) = some (E.f32.rel r (lane e.impl a i) (lane e.impl b i))) ∧
      (C.any E m = true ↔ ∃ i < e.impl.N, E.f32.rel r (lane e.impl a i) (lane e.impl b i) = true) ∧
      C.countMask E E.f32 m = some ((List.range e.impl.N).countP fun i => E.f32.rel r (lane e.impl a i) (lane e.impl b i)) := by
  have A := float_arith c e he
  obtain ⟨m, hm, _, _, h⟩ := compare_ok (by decide) (arity_le (float_arity c e he)) A.len A.bcast (float_cmp c e he C hC) E h0 h1 r a b
  exact ⟨m, hm, h⟩

/-- C43 for `double`. -/
theorem C43_double (c : Cfg) (e : Entry 64) (he : e ∈ doubleVecs c) (C : Cmp e.impl) (hC : e.cmp = some C) (E : FEnv)
    (h0 : E.f64.toSize E.f64.zero = 0) (h1 : E.f64.toSize E.f64.one = 1) (r : Rel) (a b : e.impl.V) :
    ∃ m, C.rel E r a b = some m ∧
      (∀ i < e.impl.N, C.get E m (BitVec.ofNat 32 i) = some (E.f64.rel r (lane e.impl a i) (lane e.impl b i))) ∧
      (C.any E m = true ↔ ∃ i < e.impl.N, E.f64.rel r (lane e.impl a i) (lane e.impl b i) = true) ∧
      C.countMask E E.f64 m = some ((List.range e.impl.N).countP fun i => E.f64.rel r (lane e.impl a i) (lane e.impl b i)) := by
  have A := double_arith c e he
  obtain ⟨m, hm, _, _, h⟩ := compare_ok (by decide) (arity_le (double_arity c e he)) A.len A.bcast (double_cmp c e he C hC) E h0 h1 r a b
  exact ⟨m, hm, h⟩

/-- C43 for each mask of `float` vectors, however it was obtained: `bs` are the selected lanes. -/
theorem C43_float_mask (c : Cfg) (e : Entry 32) (he : e ∈ floatVecs c) (C : Cmp e.impl) (hC : e.cmp = some C) (E : FEnv)
    (h0 : E.f32.toSize E.f32.zero = 0) (h1 : E.f32.toSize E.f32.one = 1) (m : C.M) (bs : List Bool) (hl : bs.length = e.impl.N)
    (hr : C.kind.Rep e.impl.lanes m bs) : Selects C E E.f32 m fun i => bs.getD i false :=
  have A := float_arith c e he
  selects (by decide) (arity_le (float_arity c e he)) A.len A.bcast (float_cmp c e he C hC) E E.f32 h0 h1 m bs hl hr

/-- C43 for each mask of `double` vectors. -/
theorem C43_double_mask (c : Cfg) (e : Entry 64) (he : e ∈ doubleVecs c) (C : Cmp e.impl) (hC : e.cmp = some C) (E : FEnv)
    (h0 : E.f64.toSize E.f64.zero = 0) (h1 : E.f64.toSize E.f64.one = 1) (m : C.M) (bs : List Bool) (hl : bs.length = e.impl.N)
    (hr : C.kind.Rep e.impl.lanes m bs) : Selects C E E.f64 m fun i => bs.getD i false :=
  have A := double_arith c e he
  selects (by decide) (arity_le (double_arity c e he)) A.len A.bcast (double_cmp c e he C hC) E E.f64 h0 h1 m bs hl hr

/-- C43 for `short_vec<int, 1>`, the only class for `int` with comparisons: `any` and `get`. There is no `blend`, hence no `count_mask`. -/
theorem C43_int (E : FEnv) (a b : ScalarInt1.V) :
    let any (m : BitVec 8) := anyOf (ScalarInt1.any E) (.bits 8) m
    let get (m : BitVec 8) := getOf (V := ScalarInt1.V) (fun v i => some (ScalarInt1.opIndex E v i)) (.bits 8) m 0
    (any (ScalarInt1.opLt E a b) = decide (a.val.toInt < b.val.toInt) ∧ any (ScalarInt1.opLe E a b) = decide (a.val.toInt ≤ b.val.toInt) ∧
      any (ScalarInt1.opEq E a b) = (a.val == b.val) ∧ any (ScalarInt1.opGt E a b) = decide (b.val.toInt < a.val.toInt) ∧
      any (ScalarInt1.opGe E a b) = decide (b.val.toInt ≤ a.val.toInt)) ∧
    ∀ m ∈ [ScalarInt1.opLt E a b, ScalarInt1.opLe E a b, ScalarInt1.opEq E a b, ScalarInt1.opGt E a b, ScalarInt1.opGe E a b],
      get m = some (any m) := by
  have h1 : ∀ b : Bool, ((b2i b).setWidth 8 != 0) = b := by decide
  have h2 : ∀ b : Bool, getOf (V := ScalarInt1.V) (fun v i => some (ScalarInt1.opIndex E v i)) (.bits 8) ((b2i b).setWidth 8) 0 =
      some ((b2i b).setWidth 8 != 0) := by
    intro b
    cases b <;> rfl
  refine ⟨⟨?_, ?_, ?_, ?_, ?_⟩, ?_⟩
  · exact (h1 _).trans BitVec.slt_eq_decide
  · exact (h1 _).trans BitVec.sle_eq_decide
  · exact h1 _
  · exact (h1 _).trans BitVec.slt_eq_decide
  · exact (h1 _).trans BitVec.sle_eq_decide
  · simp only [List.forall_mem_cons]
    exact ⟨h2 _, h2 _, h2 _, h2 _, h2 _, fun _ h => (nomatch h)⟩

/-- Non-trivial instances: the demo operations meet the hypotheses, and a comparison of two vectors selects some lanes only. -/
example : FEnv.demo.f32.toSize FEnv.demo.f32.zero = 0 ∧ FEnv.demo.f32.toSize FEnv.demo.f32.one = 1 ∧
    (ScalarFloat4.cmp.rel FEnv.demo .lt (⟨1, 5, 2, 7⟩ : ScalarFloat4.V) (⟨3, 4, 6, 7⟩ : ScalarFloat4.V)) = some (5 : BitVec 8) ∧
    ScalarFloat4.cmp.countMask FEnv.demo (FOps.demo 32) (5 : BitVec 8) = some 2 := ⟨rfl, rfl, rfl, rfl⟩
example : ∃ e ∈ floatVecs .avx512f, e.impl.N = 32 ∧ e.cmp.isSome := ⟨⟨Avx512Float32.impl, some Avx512Float32.cmp, some .avx512f⟩,
  by simp only [floatVecs, List.mem_cons, true_or, or_true], rfl, rfl⟩

example (a b : AvxFloat8.impl_avx.V) := C43_float .avx ⟨AvxFloat8.impl_avx, some AvxFloat8.cmp_avx, some .avx⟩
  (by simp only [floatVecs, List.mem_cons, true_or, or_true]) AvxFloat8.cmp_avx rfl FEnv.demo rfl rfl .lt a b

example (a b : ScalarDouble4.impl.V) := C43_double .scalar ⟨ScalarDouble4.impl, some ScalarDouble4.cmp, some .scalar⟩
  (by simp only [doubleVecs, List.mem_cons, true_or, or_true]) ScalarDouble4.cmp rfl FEnv.demo rfl rfl .ge a b

example (b : AvxFloat8.impl_avx.V) (x : BitVec 32) := C44_float_left .avx ⟨AvxFloat8.impl_avx, some AvxFloat8.cmp_avx, some .avx⟩
  (by simp only [floatVecs, List.mem_cons, true_or, or_true]) FEnv.demo x b

example (b : ScalarDouble4.impl.V) (x : BitVec 64) := C44_double_left .scalar ⟨ScalarDouble4.impl, some ScalarDouble4.cmp, some .scalar⟩
  (by simp only [doubleVecs, List.mem_cons, true_or, or_true]) FEnv.demo x b

end LFA.SV
