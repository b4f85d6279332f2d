/-
  Properties of `short_vec`: loads, stores, gather, scatter (C46), alignment (C55), stream output (C57), which specializations
  exist (C58).
-/
import Verif.Props.ShortVec
set_option autoImplicit false

namespace LFA.SV

/-! ### C46 -/

/-- The elements `p[0]`, …, `p[N - 1]` are accessible. -/
def Accessible {w : Nat} (m : Mem w) (p : Int) (N : Nat) : Prop := ∀ i < N, (m (p + (i : Nat))).isSome

/-- What C46 demands of a load: lane `i` is `p[i]`. No other element has to be accessible. -/
def Loads {w : Nat} (I : Impl w) (al : Nat) (load : Mem w → Int → Option I.V) : Prop :=
  ∀ m p, (al : Int) ∣ p * (w / 8 : Nat) → Accessible m p I.N → ∃ v, load m p = some v ∧ ∀ i < I.N, m (p + (i : Nat)) = some (lane I v i)

/-- What C46 demands of a store: `p[i]` is lane `i`, all other elements keep their values (or remain inaccessible). -/
def Stores {w : Nat} (I : Impl w) (al : Nat) (store : I.V → Int → Option (Writes w)) : Prop :=
  ∀ m v p, (al : Int) ∣ p * (w / 8 : Nat) → Accessible m p I.N → ∃ ws m', store v p = some ws ∧ applyW m ws = some m' ∧
    (∀ i < I.N, m' (p + (i : Nat)) = some (lane I v i)) ∧ ∀ a, (∀ i < I.N, a ≠ p + (i : Nat)) → m' a = m a

/-- What C46 demands of `gather`: lane `i` is `p[offsets[i]]`. `neg` tells if there may be negative offsets. -/
def Gathers {w : Nat} (I : Impl w) (al : Nat) (neg : Bool) (gather : Mem w → Mem 32 → Int → Int → Option I.V) : Prop :=
  ∀ m mo p o (off : Nat → BitVec 32), (al : Int) ∣ o * 4 → (∀ i < I.N, mo (o + (i : Nat)) = some (off i)) →
    (neg = false → ∀ i < I.N, 0 ≤ (off i).toInt) → (∀ i < I.N, (m (p + (off i).toInt)).isSome) →
    ∃ v, gather m mo p o = some v ∧ ∀ i < I.N, m (p + (off i).toInt) = some (lane I v i)

/-- What C46 demands of `scatter`: lane `i` is stored to `p[offsets[i]]`. If an offset occurs more than once, then the last lane counts. -/
def Scatters {w : Nat} (I : Impl w) (al : Nat) (scatter : Mem 32 → I.V → Int → Int → Option (Writes w)) : Prop :=
  ∀ m mo v p o (off : Nat → BitVec 32), (al : Int) ∣ o * 4 → (∀ i < I.N, mo (o + (i : Nat)) = some (off i)) →
    (∀ i < I.N, (m (p + (off i).toInt)).isSome) →
    ∃ ws m', scatter mo v p o = some ws ∧ applyW m ws = some m' ∧
      (∀ i < I.N, (∀ j, i < j → j < I.N → off j ≠ off i) → m' (p + (off i).toInt) = some (lane I v i)) ∧
      ∀ a, (∀ i < I.N, a ≠ p + (off i).toInt) → m' a = m a

/-- All memory accesses of a class. -/
structure Transfers {w : Nat} (I : Impl w) (R : Reqs) (E : FEnv) : Prop where
  load : ∀ v, Loads I R.any fun m p => I.load E m v p
  load_aligned : ∀ v, Loads I R.aligned fun m p => I.loadA E m v p
  pointer : Loads I R.any (I.ofPtr E)
  list : Loads I R.any (I.ofList E)
  store : Stores I R.any (I.store E)
  store_aligned : Stores I R.aligned (I.storeA E)
  store_nt : ∀ al, R.nt = some al → Stores I al (I.storeNT E)
  streaming : ∀ al, R.nt = some al → Stores I al (I.streamingStore E) ∧ Stores I al (I.streamingStoreA E)
  shift : Stores I R.any (I.shl E)
  gather : ∀ v, Gathers I R.offsets R.neg fun m mo p o => I.gather E m mo v p o
  scatter : Scatters I R.offsets (I.scatter E)

section
variable {w : Nat} {I : Impl w}

theorem loads {al : Nat} {load : Mem w → Int → Option I.V} (h : LoadLaw I.N I.lanes load al) : Loads I al load := by
  intro m p ha hm
  obtain ⟨v, h1, h2⟩ := h m p (fun k => (m (p + (k : Nat))).getD 0) ((aligned_iff ..).2 ha) fun k hk => by
    obtain ⟨x, hx⟩ := Option.isSome_iff_exists.1 (hm k hk)
    simp [hx]
  refine ⟨v, h1, fun i hi => ?_⟩
  obtain ⟨x, hx⟩ := Option.isSome_iff_exists.1 (hm i hi)
  rw [lane, h2, map_getD _ 0 0 _ i (by simpa using hi)]
  simp [List.getD, hi, hx]

theorem stores {al : Nat} {store : I.V → Int → Option (Writes w)} (h : StoreLaw I.N I.lanes store al) : Stores I al store :=
  fun m v p ha hm => h m v p ((aligned_iff ..).2 ha) hm

theorem gathers {al : Nat} {neg : Bool} {gather : Mem w → Mem 32 → Int → Int → Option I.V} (h : GatherLaw I.N I.lanes gather al neg) :
    Gathers I al neg gather := by
  intro m mo p o off ha ho hn hm
  obtain ⟨v, h1, h2⟩ := h m mo p o off (fun k => (m (p + (off k).toInt)).getD 0) ((aligned_iff ..).2 ha) hn ho fun k hk => by
    obtain ⟨x, hx⟩ := Option.isSome_iff_exists.1 (hm k hk)
    simp [hx]
  refine ⟨v, h1, fun i hi => ?_⟩
  obtain ⟨x, hx⟩ := Option.isSome_iff_exists.1 (hm i hi)
  rw [lane, h2, map_getD _ 0 0 _ i (by simpa using hi)]
  simp [List.getD, hi, hx]

theorem applyW_last (m : Mem w) (xs ys : Writes w) (a : Int) (v : BitVec w) (h : ∀ x ∈ xs ++ (a, v) :: ys, (m x.1).isSome)
    (hy : ∀ y ∈ ys, y.1 ≠ a) (m' : Mem w) (e : applyW m (xs ++ (a, v) :: ys) = some m') : m' a = some v := by
  rw [applyW_append] at e
  obtain ⟨m1, h1, _, h3, _⟩ := applyW_some m xs fun x hx => h x (List.mem_append_left _ hx)
  rw [h1] at e
  have ha : (m1 a).isSome := by rw [h3]; exact h (a, v) (List.mem_append_right _ (List.mem_cons_self ..))
  obtain ⟨z, hz⟩ := Option.isSome_iff_exists.1 ha
  have hw : wr m1 a v = some fun b => if b = a then some v else m1 b := by simp [wr, hz]
  have e : applyW (fun b => if b = a then some v else m1 b) ys = some m' := by
    simpa [applyW, hw] using e
  obtain ⟨m2, k1, k2, _, _⟩ := applyW_some (fun b => if b = a then some v else m1 b) ys fun x hx => by
    by_cases hb : x.1 = a
    · simp [hb]
    · simp only [hb, if_false, h3]
      exact h x (List.mem_append_right _ (List.mem_cons_of_mem _ hx))
  rw [k1] at e
  cases e
  rw [k2 a fun x hx => (hy x hx).symm]
  simp

theorem scatters {al : Nat} {scatter : Mem 32 → I.V → Int → Int → Option (Writes w)} (h : ScatterLaw I.N I.lanes scatter al) :
    Scatters I al scatter := by
  intro m mo v p o off ha ho hm
  have e := h mo v p o off ((aligned_iff ..).2 ha) ho
  let ws : Writes w := (List.range I.N).map fun k => (p + (off k).toInt, (I.lanes v).getD k 0)
  have hw : ∀ x ∈ ws, (m x.1).isSome := by
    intro x hx
    obtain ⟨k, hk, rfl⟩ := List.mem_map.1 hx
    exact hm k (List.mem_range.1 hk)
  obtain ⟨m', h1, h2, _, _⟩ := applyW_some m ws hw
  refine ⟨ws, m', e, h1, fun i hi hl => ?_, fun a hn => h2 a fun x hx => ?_⟩
  · have hs : ws = ((List.range i).map fun k => (p + (off k).toInt, (I.lanes v).getD k 0)) ++
        (p + (off i).toInt, lane I v i) :: ((List.range' (i + 1) (I.N - (i + 1))).map fun k => (p + (off k).toInt, (I.lanes v).getD k 0)) := by
      have : List.range I.N = List.range i ++ i :: List.range' (i + 1) (I.N - (i + 1)) := by
        rw [List.range_eq_range', List.range_eq_range', show I.N = i + ((I.N - (i + 1)) + 1) by omega, ← List.range'_append_1,
          Nat.zero_add, List.range'_succ, show i + (I.N - (i + 1) + 1) - (i + 1) = I.N - (i + 1) by omega]
      simp only [ws, this, List.map_append, List.map_cons]
      rfl
    refine applyW_last m _ _ _ _ (hs ▸ hw) ?_ m' (hs ▸ h1)
    intro y hy
    obtain ⟨k, hk, rfl⟩ := List.mem_map.1 hy
    obtain ⟨hk1, hk2⟩ := List.mem_range'_1.1 hk
    intro hc
    exact hl k (by omega) (by omega) (BitVec.eq_of_toInt_eq (by simpa using hc))
  · obtain ⟨k, hk, rfl⟩ := List.mem_map.1 hx
    exact hn k (List.mem_range.1 hk)

theorem transfers {R : Reqs} (E : FEnv) (M : MemLaws I R) : Transfers I R E where
  load v := loads (M.load E v)
  load_aligned v := loads (M.loadA E v)
  pointer := loads (M.ofPtr E)
  list := loads (M.ofList E)
  store := stores (M.store E)
  store_aligned := stores (M.storeA E)
  store_nt al h := stores (M.storeNT E al h)
  streaming al h := ⟨stores (M.storeNT E al h), stores (M.storeNT E al h)⟩
  shift := stores (M.shl E)
  gather v := gathers (M.gather E v)
  scatter := scatters (M.scatter E)

end

/-- C46 for `int`: any address for `load`, `store`, `gather` and `scatter`; multiples of the size of a register for the aligned forms. -/
theorem C46_int (c : Cfg) (e : Entry 32) (he : e ∈ intVecs c) (E : FEnv) :
    Transfers e.impl (intReqs c e.impl.N) E ∧ (intReqs c e.impl.N).any = 1 ∧ (intReqs c e.impl.N).offsets = 1 ∧
      (intReqs c e.impl.N).neg = true ∧ (intReqs c e.impl.N).nt = some (intReqs c e.impl.N).aligned := by
  refine ⟨transfers E (int_mem c e he), ?_⟩
  cases c <;> simp only [intReqs] <;> split_ifs <;> exact ⟨rfl, rfl, rfl, rfl⟩

/-- C46 for `float`. Missing: offsets which are not aligned to 64 bytes (AVX512, MIC), negative offsets (INSERT_PS) and `store_nt` on
    64-bit NEON. -/
theorem C46_float_partial (c : Cfg) (e : Entry 32) (he : e ∈ floatVecs c) (E : FEnv) : Transfers e.impl (floatReqs c e.impl.N) E :=
  transfers E (float_mem c e he)

/-- C46 for `double`. Missing: offsets which are not aligned (MIC), unaligned addresses (QPX). -/
theorem C46_double_partial (c : Cfg) (e : Entry 64) (he : e ∈ doubleVecs c) (E : FEnv) : Transfers e.impl (doubleReqs c e.impl.N) E :=
  transfers E (double_mem c e he)

/-- Targets where nothing is missing. -/
theorem C46_float_full (c : Cfg) (hc : c = .scalar ∨ c = .qpx ∨ c = .sse ∨ c = .sse2) (n : Nat) :
    (floatReqs c n).any = 1 ∧ (floatReqs c n).offsets = 1 ∧ (floatReqs c n).neg = true ∧
      (floatReqs c n).nt = some (floatReqs c n).aligned := by
  rcases hc with rfl | rfl | rfl | rfl <;> simp only [floatReqs] <;> split_ifs <;> exact ⟨rfl, rfl, rfl, rfl⟩
theorem C46_double_full (c : Cfg) (hc : c ≠ .mic ∧ c ≠ .qpx) (n : Nat) :
    (doubleReqs c n).any = 1 ∧ (doubleReqs c n).offsets = 1 ∧ (doubleReqs c n).neg = true ∧
      (doubleReqs c n).nt = some (doubleReqs c n).aligned := by
  cases c <;> simp only [doubleReqs] <;> (try split_ifs) <;> first | exact ⟨rfl, rfl, rfl, rfl⟩ | exact absurd rfl hc.1 | exact absurd rfl hc.2 | simp

example := C46_double_full .avx (by decide) 8

example := C46_float_full .sse2 (by decide) 8

/-- C46 is false on AVX512: `gather` of 16 floats fails if the array of offsets is not aligned to 64 bytes (here: 4 bytes), although all
    elements are accessible. -/
theorem C46_false_offsets (E : FEnv) (m : Mem 32) (mo : Mem 32) (v : Avx512Float16.impl.V) (p : Int) :
    Avx512Float16.impl.gather E m mo v p 1 = none ∧ Avx512Float16.impl.scatter E mo v p 1 = none := ⟨rfl, rfl⟩

/-- C46 is false on MIC, too. -/
theorem C46_false_offsets_mic (E : FEnv) (m : Mem 32) (mo : Mem 32) (v : MicFloat16.impl.V) (p : Int) :
    MicFloat16.impl.gather E m mo v p 1 = none ∧ MicFloat16.impl.scatter E mo v p 1 = none := ⟨rfl, rfl⟩

/-- C46 is false with SSE 4.1: negative offsets, if `insertps` is used. The model has no result in this case as the address depends on the
    upper half of a register. -/
theorem C46_false_negative (E : FEnv) (m : Mem 32) (mo : Mem 32) (v : SseFloat8.impl_sse41.V) (p : Int) (x : BitVec 32)
    (h0 : mo 0 = some 0) (h1 : mo 1 = some (-1)) (hx : m p = some x) : SseFloat8.impl_sse41.gather E m mo v p 0 = none := by
  have a0 : mo (0 + 0) = some 0 := h0
  have a1 : mo (0 + 1) = some (-1) := h1
  have a2 : m (p + (0 : BitVec 32).toInt) = some x := by rw [show p + (0 : BitVec 32).toInt = p from Int.add_zero p]; exact hx
  change SseFloat8.gather_sse41 E m mo v p 0 = none
  unfold SseFloat8.gather_sse41
  simp only [a0, a1, a2, bind, Option.bind, _mm_load_ss, SHORTVEC_INSERT_PS]
  rfl

example (v : SseFloat8.impl_sse41.V) := C46_false_negative FEnv.demo (fun _ => some 7) (fun i => if i = 0 then some 0 else some (-1)) v 5 7 rfl rfl rfl

/-- C46 is false on 64-bit NEON: `store_nt` writes to the pointer instead of its target, which is undefined behaviour. -/
theorem C46_false_store_nt (E : FEnv) (v : NeonFloat4.impl_neon_lp64.V) (p : Int) :
    NeonFloat4.impl_neon_lp64.storeNT E v p = none := rfl

/-- C46 is false on QPX: `load` ignores the lower bits of the address. It reads `p[-1]` if `p` is the element after an aligned one. -/
theorem C46_false_qpx (E : FEnv) (v : QpxDouble4.impl.V) (m : Mem 64) (g : Nat → BitVec 64) (h : At m 0 5 g) :
    ∃ v', QpxDouble4.impl.load E m v 1 = some v' ∧ lane QpxDouble4.impl v' 0 = g 0 := by
  have h0 := h 0 (by decide)
  have h1 := h 1 (by decide)
  have h2 := h 2 (by decide)
  have h3 := h 3 (by decide)
  refine ⟨(⟨⟨g 0, g 1, g 2, g 3⟩⟩ : QpxDouble4.V), ?_, rfl⟩
  change QpxDouble4.load E m v 1 = _
  have e : ((1 : Int) + 0) / 4 * 4 = 0 := by decide
  simp only [QpxDouble4.load, vec_ld, ld4, e, bind, Option.bind]
  have h1 : m (0 + 1) = some (g 1) := h1
  have h2 : m (0 + 2) = some (g 2) := h2
  have h3 : m (0 + 3) = some (g 3) := h3
  have h0 : m 0 = some (g 0) := h0
  simp only [h0, h1, h2, h3]
  rfl

example (v : QpxDouble4.impl.V) := C46_false_qpx FEnv.demo v (fun i => some (BitVec.ofInt 64 i)) (fun i => BitVec.ofInt 64 i) (fun i _ => by simp)

/-- The other implementation of this load reads what it should, even if the address is not aligned. -/
example (m : Mem 64) (v : ScalarDouble4.impl.V) (h : Accessible m 1 4) :
    ∃ v', ScalarDouble4.impl.load FEnv.demo m v 1 = some v' ∧ m 1 = some (lane ScalarDouble4.impl v' 0) := by
  obtain ⟨v', h1, h2⟩ := (C46_double_partial .scalar ⟨ScalarDouble4.impl, some ScalarDouble4.cmp, some .scalar⟩
    (by simp only [doubleVecs, List.mem_cons, true_or, or_true]) FEnv.demo).load v m 1 (Int.one_dvd _) h
  exact ⟨v', h1, h2 0 (by decide)⟩

/-- C46: a vector which has been stored can be loaded again. -/
theorem C46_roundtrip {w : Nat} (I : Impl w) (R : Reqs) (E : FEnv) (T : Transfers I R E) (m : Mem w) (v u : I.V) (p : Int)
    (ha : (R.any : Int) ∣ p * (w / 8 : Nat)) (h : Accessible m p I.N) : ∃ ws m' v', I.store E v p = some ws ∧ applyW m ws = some m' ∧
      I.load E m' u p = some v' ∧ ∀ i < I.N, lane I v' i = lane I v i := by
  obtain ⟨ws, m', h1, h2, h3, _⟩ := T.store m v p ha h
  obtain ⟨v', h4, h5⟩ := T.load u m' p ha fun i hi => by rw [h3 i hi]; rfl
  exact ⟨ws, m', v', h1, h2, h4, fun i hi => Option.some.inj ((h5 i hi).symm.trans (h3 i hi))⟩

/-- C46: `gather` returns what `scatter` has stored, if the offsets are distinct. -/
theorem C46_gather_scatter {w : Nat} (I : Impl w) (R : Reqs) (E : FEnv) (T : Transfers I R E) (m : Mem w) (mo : Mem 32) (v u : I.V)
    (p o : Int) (off : Nat → BitVec 32) (ha : (R.offsets : Int) ∣ o * 4) (ho : ∀ i < I.N, mo (o + (i : Nat)) = some (off i))
    (hn : R.neg = false → ∀ i < I.N, 0 ≤ (off i).toInt) (hm : ∀ i < I.N, (m (p + (off i).toInt)).isSome)
    (hd : ∀ i j, i < j → j < I.N → off j ≠ off i) : ∃ ws m' v', I.scatter E mo v p o = some ws ∧ applyW m ws = some m' ∧
      I.gather E m' mo u p o = some v' ∧ ∀ i < I.N, lane I v' i = lane I v i := by
  obtain ⟨ws, m', h1, h2, h3, _⟩ := T.scatter m mo v p o off ha ho hm
  have h3 : ∀ i < I.N, m' (p + (off i).toInt) = some (lane I v i) := fun i hi => h3 i hi fun j hj hj' => hd i j hj hj'
  obtain ⟨v', h4, h5⟩ := T.gather u m' mo p o off ha ho hn fun i hi => by rw [h3 i hi]; rfl
  exact ⟨ws, m', v', h1, h2, h4, fun i hi => Option.some.inj ((h5 i hi).symm.trans (h3 i hi))⟩

/-- The requirements can be met: offsets 0, 2, 4, … in an array at address 0, all elements accessible. -/
example : ∃ (m : Mem 32) (mo : Mem 32) (off : Nat → BitVec 32), (∀ i < 8, mo (0 + (i : Nat)) = some (off i)) ∧
    (∀ i < 8, 0 ≤ (off i).toInt) ∧ (∀ i < 8, (m (0 + (off i).toInt)).isSome) ∧ ∀ i j, i < j → j < 8 → off j ≠ off i :=
  ⟨fun _ => some 0, fun i => some (BitVec.ofInt 32 (2 * i)), fun i => BitVec.ofInt 32 (2 * i),
    fun i _ => by simp, by decide, fun _ _ => rfl, fun i j h h' => (by decide : ∀ j < 8, ∀ i < j, BitVec.ofInt 32 (2 * (j : Nat)) ≠ BitVec.ofInt 32 (2 * (i : Nat))) j h' i h⟩

/-! ### C54 -/

/-- What C54 demands: `a op b` and `a op= b` are defined and have the same result, provided that each pair of lanes fulfils `ok`. -/
def Agree {w : Nat} (I : Impl w) (f g : I.V → I.V → Option I.V) (ok : BitVec w → BitVec w → Prop) : Prop :=
  ∀ a b, (∀ i < I.N, ok (lane I a i) (lane I b i)) → ∃ v v', f a b = some v ∧ g a b = some v' ∧ ∀ i < I.N, lane I v i = lane I v' i

theorem agree {w : Nat} {I : Impl w} {f g : I.V → I.V → Option I.V} {h : BitVec w → BitVec w → Option (BitVec w)}
    (hl : LenLaw I.N I.lanes) (hf : BinLaw I.lanes f h) (hg : BinLaw I.lanes g h) : Agree I f g fun x y => (h x y).isSome := by
  intro a b hok
  let h' : BitVec w → BitVec w → BitVec w := fun x y => (h x y).getD 0
  have e := map2?_ok (f := h) (g := h') (I.lanes a) (I.lanes b) fun i hi hi' => by
    obtain ⟨z, hz⟩ := Option.isSome_iff_exists.1 (hok i (by rw [← hl a]; exact hi))
    have hz : h ((I.lanes a).getD i 0) ((I.lanes b).getD i 0) = some z := hz
    simp only [h', hz]; rfl
  obtain ⟨v, h1, h2⟩ := hf a b _ e
  obtain ⟨v', h3, h4⟩ := hg a b _ e
  exact ⟨v, v', h1, h3, fun i _ => by rw [lane, lane, h2, h4]⟩

theorem Agree.mono {w : Nat} {I : Impl w} {f g : I.V → I.V → Option I.V} {ok ok' : BitVec w → BitVec w → Prop} (h : Agree I f g ok)
    (ho : ∀ x y, ok' x y → ok x y) : Agree I f g ok' := fun a b hok => h a b fun i hi => ho _ _ (hok i hi)

/-- C54: compound assignment agrees with the binary operator. `float`. -/
theorem C54_float (c : Cfg) (e : Entry 32) (he : e ∈ floatVecs c) (E : FEnv) : Agree e.impl (e.impl.add E) (e.impl.addA E) (fun _ _ => True) ∧
    Agree e.impl (e.impl.sub E) (e.impl.subA E) (fun _ _ => True) ∧ Agree e.impl (e.impl.mul E) (e.impl.mulA E) (fun _ _ => True) ∧
    Agree e.impl (e.impl.div E) (e.impl.divA E) (fun _ _ => True) ∧ Agree e.impl (e.impl.divSqrt E) (e.impl.divSqrtA E) fun _ _ => True := by
  have A := float_arith c e he
  refine ⟨(agree A.len (A.add E) (A.addA E)).mono ?_, (agree A.len (A.sub E) (A.subA E)).mono ?_,
    (agree A.len (A.mul E) (?_ : BinLaw _ _ ((floatOps c e.impl.N).mul E))).mono ?_,
    (agree A.len (A.div E) (floatOps_divA c _ E ▸ A.divA E)).mono ?_, (agree A.len (A.divSqrt E) (A.divSqrtA E)).mono ?_⟩
  case refine_3 => rw [floatOps_mul, ← floatOps_mulA c e.impl.N E]; exact A.mulA E
  all_goals intro x y _
  · rw [floatOps_add]; rfl
  · rw [floatOps_sub]; rfl
  · rw [floatOps_mul]; rfl
  · rw [floatOps_div]; rfl
  · generalize e.impl.N = n
    cases c <;> simp only [floatOps] <;> (try split_ifs) <;> rfl

example := C54_float .avx ⟨AvxFloat8.impl_avx, some AvxFloat8.cmp_avx, some .avx⟩
  (by simp only [floatVecs, List.mem_cons, true_or, or_true]) FEnv.demo

/-- C54, `double`. Missing: `*=` on QPX (C54_false_qpx). -/
theorem C54_double_partial (c : Cfg) (e : Entry 64) (he : e ∈ doubleVecs c) (E : FEnv) :
    Agree e.impl (e.impl.add E) (e.impl.addA E) (fun _ _ => True) ∧
    Agree e.impl (e.impl.sub E) (e.impl.subA E) (fun _ _ => True) ∧
    ((c = .qpx → e.impl.N ≤ 2) → Agree e.impl (e.impl.mul E) (e.impl.mulA E) (fun _ _ => True)) ∧
    Agree e.impl (e.impl.div E) (e.impl.divA E) (fun _ _ => True) ∧ Agree e.impl (e.impl.divSqrt E) (e.impl.divSqrtA E) fun _ _ => True := by
  have A := double_arith c e he
  refine ⟨(agree A.len (A.add E) (A.addA E)).mono ?_, (agree A.len (A.sub E) (A.subA E)).mono ?_,
    fun hq => (agree A.len (A.mul E) (?_ : BinLaw _ _ ((doubleOps c e.impl.N).mul E))).mono ?_,
    (agree A.len (A.div E) (?_ : BinLaw _ _ ((doubleOps c e.impl.N).div E))).mono ?_, (agree A.len (A.divSqrt E) (A.divSqrtA E)).mono ?_⟩
  case refine_3 =>
    have h := A.mulA E
    revert h
    cases c <;> simp only [doubleOps] <;> (try split_ifs) <;> first | exact id | exact fun h => absurd (hq rfl) ‹_›
  case refine_5 =>
    have h := A.divA E
    revert h
    cases c <;> simp only [doubleOps] <;> (try split_ifs) <;> exact id
  all_goals
    intro x y _
    generalize e.impl.N = n
    cases c <;> simp only [doubleOps] <;> (try split_ifs) <;> rfl

/-- C54, `int`: addition, subtraction, multiplication and division by square roots. Missing: division (C54_false_int). -/
theorem C54_int_partial (c : Cfg) (e : Entry 32) (he : e ∈ intVecs c) (E : FEnv) :
    Agree e.impl (e.impl.add E) (e.impl.addA E) (fun x y => inInt (x.toInt + y.toInt)) ∧
    Agree e.impl (e.impl.sub E) (e.impl.subA E) (fun x y => inInt (x.toInt - y.toInt)) ∧
    Agree e.impl (e.impl.mul E) (e.impl.mulA E) (fun x y => inInt (x.toInt * y.toInt)) := by
  obtain ⟨h1, h2, h3, h4, h5, h6⟩ := C44_int c e he E
  have K : ∀ {f g : e.impl.V → e.impl.V → Option e.impl.V} {op : Int → Int → Int} {ok : Int → Int → Prop}, LaneWiseInt e.impl f op ok →
      LaneWiseInt e.impl g op ok → Agree e.impl f g fun x y => ok x.toInt y.toInt := by
    intro f g op ok hf hg a b hok
    obtain ⟨v, e1, e2⟩ := hf a b hok
    obtain ⟨v', e3, e4⟩ := hg a b hok
    exact ⟨v, v', e1, e3, fun i hi => BitVec.eq_of_toInt_eq ((e2 i hi).trans (e4 i hi).symm)⟩
  exact ⟨K h1 h4, K h2 h5, K h3 h6⟩

/-- Targets where division of `int`s uses floating point numbers, and `/=` rounds. -/
def roundsInt (c : Cfg) (n : Nat) : Bool :=
  decide (2 < n) && match c with
    | .avx512f | .avx2 => true
    | .avx | .sse | .sse2 | .sse41 => decide (n ≠ 8)
    | _ => false

theorem tdiv_inInt (x y : BitVec 32) (h0 : y.toInt ≠ 0) (h : ¬(x.toInt = -2147483648 ∧ y.toInt = -1)) : inInt (x.toInt.tdiv y.toInt) := by
  have hx : -2147483648 ≤ x.toInt := BitVec.le_toInt x
  have hx' : x.toInt < 2147483648 := BitVec.toInt_lt
  generalize x.toInt = a at *
  generalize y.toInt = b at *
  simp only [inInt, Bool.and_eq_true, decide_eq_true_eq]
  by_cases h1 : b = 1
  · subst h1; rw [Int.tdiv_one]; omega
  by_cases h2 : b = -1
  · subst h2; rw [Int.tdiv_neg, Int.tdiv_one]; omega
  have e : (a.tdiv b).natAbs = a.natAbs / b.natAbs := Int.natAbs_tdiv a b
  have : a.natAbs / b.natAbs ≤ a.natAbs / 2 := Nat.div_le_div_left (by omega) (by decide)
  omega

/-- C54 for division of `int`s, all other targets. -/
theorem C54_int_div_partial (c : Cfg) (e : Entry 32) (he : e ∈ intVecs c) (E : FEnv) (h : roundsInt c e.impl.N = false) :
    Agree e.impl (e.impl.div E) (e.impl.divA E) fun x y => y.toInt ≠ 0 ∧ ¬(x.toInt = -2147483648 ∧ y.toInt = -1) := by
  have A := int_arith c e he
  have e2 : (intOps c e.impl.N).divA E = (intOps c e.impl.N).div E := by
    revert h
    generalize e.impl.N = n
    intro h
    by_cases h2 : n ≤ 2
    · simp only [intOps, if_pos h2]
    · have : 2 < n := by omega
      cases c <;> simp only [roundsInt, this, decide_true, Bool.true_and, Bool.true_eq_false, decide_eq_false_iff_not, Decidable.not_not] at h <;>
        simp only [intOps, if_neg h2, h, if_true] <;> rfl
  refine (agree A.len (A.div E) (e2 ▸ A.divA E)).mono fun x y hy => ?_
  have K : (idiv x y).isSome := by
    rw [idiv, if_pos ⟨hy.1, tdiv_inInt x y hy.1 hy.2⟩]; rfl
  generalize e.impl.N = n
  cases c <;> simp only [intOps] <;> split_ifs <;> first | exact K | rfl

/-- C54 is false on QPX: `a *= b` is not `a * b`, for any two numbers whose sum is not their product. -/
theorem C54_false_qpx (E : FEnv) (x y : BitVec 64) (h : E.f64.add x y ≠ E.f64.mul x y) (e : Entry 64) (he : e ∈ doubleVecs .qpx)
    (hn : 2 < e.impl.N) : ¬ Agree e.impl (e.impl.mul E) (e.impl.mulA E) fun _ _ => True := by
  intro ha
  refine C44_false E x y h e he hn ?_
  have hm := (C44_double_partial .qpx e he E).2.2.1
  intro a b
  obtain ⟨v, v', h1, h2, h3⟩ := ha a b fun _ _ => trivial
  obtain ⟨v'', h4, h5⟩ := hm a b
  rw [h1] at h4
  cases h4
  exact ⟨v', h2, fun i hi => (h3 i hi).symm.trans (h5 i hi)⟩

/-- C54 is false for `int`s in registers, for any two numbers whose quotient is not rounded to an integer as it is truncated. -/
theorem C54_false_int (E : FEnv) (x y : BitVec 32)
    (h : E.f32.toIntT (E.f32.div (E.f32.ofInt x) (E.f32.ofInt y)) ≠ E.f32.toIntR (E.f32.div (E.f32.ofInt x) (E.f32.ofInt y)))
    (c : Cfg) (e : Entry 32) (he : e ∈ intVecs c) (hr : roundsInt c e.impl.N = true) :
    ¬ Agree e.impl (e.impl.div E) (e.impl.divA E) fun x' y' => x' = x ∧ y' = y := by
  have A := int_arith c e he
  have hn : 2 < e.impl.N := by
    unfold roundsInt at hr
    exact of_decide_eq_true (Bool.and_eq_true_iff.1 hr).1
  have e1 : (intOps c e.impl.N).div E = fun x y => some (E.f32.toIntT (E.f32.div (E.f32.ofInt x) (E.f32.ofInt y))) := by
    have h2 : ¬ e.impl.N ≤ 2 := by omega
    cases c <;> simp only [roundsInt, Bool.and_false, Bool.false_eq_true] at hr <;> simp only [intOps, if_neg h2]
  have e2 : (intOps c e.impl.N).divA E = fun x y => some (E.f32.toIntR (E.f32.div (E.f32.ofInt x) (E.f32.ofInt y))) := by
    have h2 : ¬ e.impl.N ≤ 2 := by omega
    cases c <;> simp only [roundsInt, Bool.and_false, Bool.false_eq_true, Bool.and_eq_true, decide_eq_true_eq] at hr <;>
      first
      | simp only [intOps, if_neg h2, if_neg hr.2]
      | simp only [intOps, if_neg h2]
  have l1 := laneWise A.len (e1 ▸ A.div E)
  have l2 := laneWise A.len (e2 ▸ A.divA E)
  intro ha
  have bx := fun i hi => bcast_lane (A.bcast E) x i hi
  have bY := fun i hi => bcast_lane (A.bcast E) y i hi
  obtain ⟨v, v', h1, h2, h3⟩ := ha (e.impl.bcast E x) (e.impl.bcast E y) fun i hi => ⟨bx i hi, bY i hi⟩
  obtain ⟨u, h4, h5⟩ := l1 (e.impl.bcast E x) (e.impl.bcast E y)
  obtain ⟨u', h6, h7⟩ := l2 (e.impl.bcast E x) (e.impl.bcast E y)
  rw [h1] at h4
  rw [h2] at h6
  cases h4
  cases h6
  have := (h5 0 (by omega)).symm.trans ((h3 0 (by omega)).trans (h7 0 (by omega)))
  rw [bx 0 (by omega), bY 0 (by omega)] at this
  exact h this

/-! ### C55 -/

theorem float_alignment : ∀ c, c ≠ .mic → ∀ e ∈ floatVecs c, usesNeon c e.impl.N = false → ∀ al, e.alignment = some al →
    (floatReqs c e.impl.N).aligned ∣ al ∧ ∀ nt, (floatReqs c e.impl.N).nt = some nt → nt ∣ al := by
  intro c hc e he hn al ha
  cases c <;> simp only [floatVecs, List.mem_cons, List.not_mem_nil, or_false] at he <;>
    first
    | exact absurd rfl hc
    | (rcases he with rfl | rfl | rfl | rfl | rfl | rfl <;> first | exact Bool.noConfusion hn | (cases ha; exact ⟨by decide, fun x h => by cases h; decide⟩))

theorem double_alignment : ∀ c, c ≠ .mic → ∀ e ∈ doubleVecs c, ∀ al, e.alignment = some al →
    (doubleReqs c e.impl.N).aligned ∣ al ∧ ∀ nt, (doubleReqs c e.impl.N).nt = some nt → nt ∣ al := by
  intro c hc e he al ha
  cases c <;> simp only [doubleVecs, List.mem_cons, List.not_mem_nil, or_false] at he <;>
    first
    | exact absurd rfl hc
    | (rcases he with rfl | rfl | rfl | rfl | rfl | rfl <;> first | (cases ha; done) | (cases ha; exact ⟨by decide, fun x h => by cases h; decide⟩))

theorem int_alignment : ∀ c, ∀ e ∈ intVecs c, ∀ al, e.alignment = some al →
    (intReqs c e.impl.N).aligned ∣ al ∧ ∀ nt, (intReqs c e.impl.N).nt = some nt → nt ∣ al := by
  intro c e he al ha
  cases c <;> simp only [intVecs, List.mem_cons, List.not_mem_nil, or_false] at he <;>
    (rcases he with rfl | rfl | rfl | rfl | rfl | rfl <;> first | (cases ha; done) | (cases ha; exact ⟨by decide, fun x h => by cases h; decide⟩))

/-- What C55 demands: addresses which are multiples of `al` may be passed to `load_aligned`, `store_aligned` and `store_nt`. -/
structure AlignedAccess {w : Nat} (I : Impl w) (E : FEnv) (al : Nat) : Prop where
  load_aligned : ∀ v, Loads I al fun m p => I.loadA E m v p
  store_aligned : Stores I al (I.storeA E)
  store_nt : Stores I al (I.storeNT E)
  streaming : Stores I al (I.streamingStore E) ∧ Stores I al (I.streamingStoreA E)

theorem Loads.mono {w : Nat} {I : Impl w} {a b : Nat} {f : Mem w → Int → Option I.V} (h : Loads I a f) (hd : a ∣ b) : Loads I b f :=
  fun m p ha hm => h m p (Int.dvd_trans (Int.natCast_dvd_natCast.2 hd) ha) hm
theorem Stores.mono {w : Nat} {I : Impl w} {a b : Nat} {f : I.V → Int → Option (Writes w)} (h : Stores I a f) (hd : a ∣ b) :
    Stores I b f := fun m v p ha hm => h m v p (Int.dvd_trans (Int.natCast_dvd_natCast.2 hd) ha) hm

theorem alignedAccess {w : Nat} {I : Impl w} {R : Reqs} {E : FEnv} (T : Transfers I R E) {al nt : Nat} (hn : R.nt = some nt)
    (h : R.aligned ∣ al ∧ ∀ nt, R.nt = some nt → nt ∣ al) : AlignedAccess I E al :=
  ⟨fun v => (T.load_aligned v).mono h.1, T.store_aligned.mono h.1, (T.store_nt nt hn).mono (h.2 nt hn),
    ((T.streaming nt hn).1.mono (h.2 nt hn)), (T.streaming nt hn).2.mono (h.2 nt hn)⟩

/-- C55: addresses which are multiples of `alignment<short_vec<T, ARITY> >::VALUE` may be passed to the functions which demand alignment.
    `float`. Missing: MIC, NEON (C55_false_mic, C55_false_neon). -/
theorem C55_float_partial (c : Cfg) (hc : c ≠ .mic) (e : Entry 32) (he : e ∈ floatVecs c) (hn : usesNeon c e.impl.N = false) (al : Nat)
    (ha : e.alignment = some al) (E : FEnv) : AlignedAccess e.impl E al := by
  have h : ∃ nt, (floatReqs c e.impl.N).nt = some nt := by
    cases c <;> simp only [floatVecs, List.mem_cons, List.not_mem_nil, or_false] at he <;>
      first
      | (rcases he with rfl | rfl | rfl | rfl | rfl | rfl <;> first | exact Bool.noConfusion hn | exact ⟨_, rfl⟩)
  obtain ⟨nt, h⟩ := h
  exact alignedAccess (C46_float_partial c e he E) h (float_alignment c hc e he hn al ha)

example := C55_float_partial .avx512f (by decide) ⟨Avx512Float16.impl, some Avx512Float16.cmp, some .avx512f⟩
  (by simp only [floatVecs, List.mem_cons, true_or, or_true]) (by decide) 64 rfl FEnv.demo

/-- C55, `double`. Missing: MIC. -/
theorem C55_double_partial (c : Cfg) (hc : c ≠ .mic) (e : Entry 64) (he : e ∈ doubleVecs c) (al : Nat)
    (ha : e.alignment = some al) (E : FEnv) : AlignedAccess e.impl E al := by
  have h : ∃ nt, (doubleReqs c e.impl.N).nt = some nt := by
    cases c <;> simp only [doubleVecs, List.mem_cons, List.not_mem_nil, or_false] at he <;>
      rcases he with rfl | rfl | rfl | rfl | rfl | rfl <;> exact ⟨_, rfl⟩
  obtain ⟨nt, h⟩ := h
  exact alignedAccess (C46_double_partial c e he E) h (double_alignment c hc e he al ha)

example := C55_double_partial .scalar (by decide) ⟨ScalarDouble4.impl, some ScalarDouble4.cmp, some .scalar⟩
  (by simp only [doubleVecs, List.mem_cons, true_or, or_true]) _ rfl FEnv.demo

/-- C55, `int`. -/
theorem C55_int (c : Cfg) (e : Entry 32) (he : e ∈ intVecs c) (al : Nat) (ha : e.alignment = some al) (E : FEnv) :
    AlignedAccess e.impl E al := by
  obtain ⟨T, _, _, _, h⟩ := C46_int c e he E
  exact alignedAccess T h (int_alignment c e he al ha)

/-- All specializations but those for QPX have the constant. -/
theorem C55_available (c : Cfg) (hc : c ≠ .qpx) : (∀ e ∈ floatVecs c, e.alignment.isSome) ∧ (∀ e ∈ doubleVecs c, e.alignment.isSome) ∧
    ∀ e ∈ intVecs c, e.alignment.isSome := by
  refine ⟨fun e he => ?_, fun e he => ?_, fun e he => ?_⟩ <;>
  cases c <;> simp only [floatVecs, doubleVecs, intVecs, List.mem_cons, List.not_mem_nil, or_false] at he <;>
    first
    | exact absurd rfl hc
    | (rcases he with rfl | rfl | rfl | rfl | rfl | rfl <;> rfl)

example := C55_available .avx (by decide)

example : ∃ e ∈ floatVecs .avx512f, e.impl = Avx512Float16.impl ∧ e.alignment = some 64 :=
  ⟨⟨Avx512Float16.impl, some Avx512Float16.cmp, some .avx512f⟩, by simp only [floatVecs, List.mem_cons, true_or, or_true], rfl, rfl⟩

/-- C55 is false on MIC: the constant is 32, but `load_aligned` fails for addresses which are not multiples of 64. -/
theorem C55_false_mic (E : FEnv) (m : Mem 32) (v : MicFloat16.impl.V) :
    ∃ e ∈ floatVecs .mic, e.impl = MicFloat16.impl ∧ e.alignment = some 32 ∧ MicFloat16.impl.loadA E m v 8 = none :=
  ⟨⟨MicFloat16.impl, none, some .mic⟩, by simp only [floatVecs, List.mem_cons, true_or, or_true], rfl, rfl, rfl⟩

/-- C55 is false on NEON: the constant is 16, but `load_aligned` of 8 floats demands 32. -/
theorem C55_false_neon (E : FEnv) (m : Mem 32) (v : NeonFloat8.impl_neon.V) :
    ∃ e ∈ floatVecs .neon, e.impl = NeonFloat8.impl_neon ∧ e.alignment = some 16 ∧ NeonFloat8.impl_neon.loadA E m v 4 = none :=
  ⟨⟨NeonFloat8.impl_neon, none, some .neon⟩, by simp only [floatVecs, List.mem_cons, true_or, or_true], rfl, rfl, rfl⟩

/-- C55 is false on QPX: there is no constant. -/
theorem C55_false_qpx : ∃ e ∈ doubleVecs .qpx, e.impl = QpxDouble4.impl ∧ e.alignment = none :=
  ⟨⟨QpxDouble4.impl, none, none⟩, by simp only [doubleVecs, List.mem_cons, true_or, or_true], rfl, rfl⟩

/-! ### C57 -/

/-- Output of numbers: separated by commas. -/
def listed {w : Nat} : List (BitVec w) → List (Out w)
  | [] => []
  | x :: xs => .v x :: xs.flatMap fun y => [.s ", ", .v y]

theorem commaSep_listed {w : Nat} : ∀ xs : List (BitVec w), commaSep xs = listed xs
  | [] => rfl
  | [_] => rfl
  | x :: y :: xs => by
    rw [commaSep, commaSep_listed (y :: xs)]
    simp [listed]

/-- C57: a vector is printed as a list of its lanes in brackets. `float`. -/
theorem C57_float (c : Cfg) (e : Entry 32) (he : e ∈ floatVecs c) (E : FEnv) (v : e.impl.V) :
    e.impl.print E v = .s "[" :: listed (e.impl.lanes v) ++ [.s "]"] := by
  rw [← commaSep_listed]; exact float_print c e he E v

/-- C57, `int`. -/
theorem C57_int (c : Cfg) (e : Entry 32) (he : e ∈ intVecs c) (E : FEnv) (v : e.impl.V) :
    e.impl.print E v = .s "[" :: listed (e.impl.lanes v) ++ [.s "]"] := by
  rw [← commaSep_listed]; exact int_print c e he E v

/-- C57, `double`. Missing: 32 lanes on QPX (C57_false). -/
theorem C57_double_partial (c : Cfg) (e : Entry 64) (he : e ∈ doubleVecs c) (hc : c = .qpx → e.impl.N ≠ 32) (E : FEnv) (v : e.impl.V) :
    e.impl.print E v = .s "[" :: listed (e.impl.lanes v) ++ [.s "]"] := by
  rw [← commaSep_listed]; exact double_print c e he hc E v

/-- C57 is false on QPX: the output of 32 numbers contains a bracket instead of a comma. -/
theorem C57_false (E : FEnv) (v : QpxDouble32.impl.V) :
    ∃ e ∈ doubleVecs .qpx, e.impl = QpxDouble32.impl ∧
      QpxDouble32.impl.print E v ≠ .s "[" :: listed (QpxDouble32.impl.lanes v) ++ [.s "]"] := by
  refine ⟨⟨QpxDouble32.impl, none, none⟩, by simp only [doubleVecs, List.mem_cons, true_or, or_true], rfl, ?_⟩
  intro h
  have h : (some (.s "[") : Option (Out 64)) = some (.s ", ") := congrArg (fun l => l[32]?) h
  exact absurd (Out.s.inj (Option.some.inj h)) (by decide)

/-! ### C58 -/

/-- C58: on each target there is exactly one specialization for each arity. `double` and `int`. -/
theorem C58_double (c : Cfg) : (doubleVecs c).map (·.impl.N) = [1, 2, 4, 8, 16, 32] := by cases c <;> rfl
theorem C58_int (c : Cfg) : (intVecs c).map (·.impl.N) = [1, 2, 4, 8, 16, 32] := by cases c <;> rfl
/-- C58, `float`. Missing: QPX (C58_false). -/
theorem C58_float_partial (c : Cfg) (h : c ≠ .qpx) : (floatVecs c).map (·.impl.N) = [1, 2, 4, 8, 16, 32] := by
  cases c <;> first | rfl | exact absurd rfl h
/-- C58 is false: there is no `short_vec<float, 32>` on QPX. -/
theorem C58_false : ¬ ∃ e ∈ floatVecs .qpx, e.impl.N = 32 := by
  rintro ⟨e, he, hn⟩
  have : e.impl.N ∈ (floatVecs .qpx).map (·.impl.N) := List.mem_map_of_mem he
  rw [hn] at this
  exact absurd this (by decide)

example := C58_float_partial .avx (by decide)

example (v u : ScalarDouble4.impl.V) := C46_roundtrip ScalarDouble4.impl _ FEnv.demo (C46_double_partial .scalar
  ⟨ScalarDouble4.impl, some ScalarDouble4.cmp, some .scalar⟩ (by simp only [doubleVecs, List.mem_cons, true_or, or_true]) FEnv.demo)
  (fun _ => some 3) v u 1 (Int.one_dvd _) (fun _ _ => rfl)

example (v u : ScalarFloat8.impl.V) := C46_gather_scatter ScalarFloat8.impl _ FEnv.demo (C46_float_partial .scalar
  ⟨ScalarFloat8.impl, some ScalarFloat8.cmp, some .scalar⟩ (by simp only [floatVecs, List.mem_cons, true_or, or_true]) FEnv.demo)
  (fun _ => some 0) (fun i => some (BitVec.ofInt 32 (2 * i))) v u 5 0 (fun i => BitVec.ofInt 32 (2 * i)) (Int.one_dvd _) (fun i _ => by simp)
  (fun h => by cases h) (fun _ _ => rfl)
  fun i j h h' => (by decide : ∀ j < 8, ∀ i < j, BitVec.ofInt 32 (2 * (j : Nat)) ≠ BitVec.ofInt 32 (2 * (i : Nat))) j h' i h

end LFA.SV
