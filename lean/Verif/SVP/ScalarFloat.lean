/-
  Generated by tools/sv_proofs.py: the classes of SV/ScalarFloat.lean obey the laws of SV/Spec.lean.
-/
import Verif.SV.ScalarFloat
import Verif.SV.LaneOps
import Verif.SV.Unroll
set_option autoImplicit false
set_option linter.unusedSimpArgs false
set_option linter.unusedVariables false
set_option maxRecDepth 100000
open LFA.SV

namespace LFA.SV.ScalarFloat1

theorem len_law : LenLaw 1 V.lanes :=
  fun _ => rfl

theorem bcast_law (E : FEnv) : BcastLaw 1 V.lanes (bcast E) :=
  fun _ => rfl

theorem opAdd_law (E : FEnv) : BinLaw V.lanes (fun a b => some (opAdd E a b)) ((LaneOps.ieee FEnv.f32).add E) :=
  binSome (fun _ _ => rfl)

theorem opSub_law (E : FEnv) : BinLaw V.lanes (fun a b => some (opSub E a b)) ((LaneOps.ieee FEnv.f32).sub E) :=
  binSome (fun _ _ => rfl)

theorem opMul_law (E : FEnv) : BinLaw V.lanes (fun a b => some (opMul E a b)) ((LaneOps.ieee FEnv.f32).mul E) :=
  binSome (fun _ _ => rfl)

theorem opDiv_law (E : FEnv) : BinLaw V.lanes (fun a b => some (opDiv E a b)) ((LaneOps.ieee FEnv.f32).div E) :=
  binSome (fun _ _ => rfl)

theorem opAddAssign_law (E : FEnv) : BinLaw V.lanes (fun a b => some (opAddAssign E a b)) ((LaneOps.ieee FEnv.f32).add E) :=
  binSome (fun _ _ => rfl)

theorem opSubAssign_law (E : FEnv) : BinLaw V.lanes (fun a b => some (opSubAssign E a b)) ((LaneOps.ieee FEnv.f32).sub E) :=
  binSome (fun _ _ => rfl)

theorem opMulAssign_law (E : FEnv) : BinLaw V.lanes (fun a b => some (opMulAssign E a b)) ((LaneOps.ieee FEnv.f32).mulA E) :=
  binSome (fun _ _ => rfl)

theorem opDivAssign_law (E : FEnv) : BinLaw V.lanes (fun a b => some (opDivAssign E a b)) ((LaneOps.ieee FEnv.f32).divA E) :=
  binSome (fun _ _ => rfl)

theorem sqrtFn_law (E : FEnv) : UnLaw V.lanes (fun a => some (sqrtFn E a)) ((LaneOps.ieee FEnv.f32).sqrt E) :=
  unSome (fun _ => rfl)

theorem sqrt_law (E : FEnv) : UnLaw V.lanes (fun a => some (sqrt E a)) ((LaneOps.ieee FEnv.f32).sqrt E) :=
  unSome (fun _ => rfl)

theorem load_law (E : FEnv) (v : V) : LoadLaw 1 V.lanes (fun m p => load E m v p) 1 :=
  by
  intro m p g _ h
  obtain h0 := all1 h
  exact ⟨_, bindS h0 <| rfl, rfl⟩

theorem load_aligned_law (E : FEnv) (v : V) : LoadLaw 1 V.lanes (fun m p => load_aligned E m v p) 1 :=
  by
  intro m p g ha h
  obtain ⟨v, h1, h2⟩ := load_law E v m p g ha h
  exact ⟨v, bindS h1 rfl, h2⟩

theorem ofPtr_law (E : FEnv) : LoadLaw 1 V.lanes (fun m p => ofPtr E m p) 1 :=
  by
  intro m p g ha h
  obtain ⟨v, h1, h2⟩ := load_law E _ m p g ha h
  exact ⟨v, bindS h1 rfl, h2⟩

theorem ofList_law (E : FEnv) : LoadLaw 1 V.lanes (fun m p => ofList E m p) 1 :=
  by
  intro m p g ha h
  obtain ⟨v, h1, h2⟩ := load_law E _ m p g ha h
  exact ⟨v, bindS h1 rfl, h2⟩

theorem store_law (E : FEnv) : StoreLaw 1 V.lanes (fun v p => store E v p) 1 :=
  storeOf (fun _ => rfl) fun v p _ => by
  dsimp only [store, V.lanes, st]
  simp only [List.cons_append, List.nil_append, Int.add_assoc, Int.reduceAdd, Int.add_zero]

theorem store_aligned_law (E : FEnv) : StoreLaw 1 V.lanes (fun v p => store_aligned E v p) 1 :=
  by
  intro m v p ha h
  obtain ⟨ws, m', h1, h2⟩ := store_law E m v p ha h
  exact ⟨ws, m', bindS h1 rfl, h2⟩

theorem store_nt_law (E : FEnv) : StoreLaw 1 V.lanes (fun v p => store_nt E v p) 1 :=
  by
  intro m v p ha h
  obtain ⟨ws, m', h1, h2⟩ := store_law E m v p ha h
  exact ⟨ws, m', bindS h1 rfl, h2⟩

theorem opStore_law (E : FEnv) : StoreLaw 1 V.lanes (fun v p => opStore E p v) 1 :=
  by
  intro m v p ha h
  obtain ⟨ws, m', h1, h2⟩ := store_law E m v p ha h
  exact ⟨ws, m', bindS h1 rfl, h2⟩

theorem gather_law (E : FEnv) (v : V) : GatherLaw 1 V.lanes (fun m mo p o => gather E m mo v p o) 1 true :=
  by
  intro m mo p o off g ha hn ho hg
  obtain o0 := all1 ho
  obtain g0 := all1 hg
  exact ⟨_, bindS o0 <| bindS g0 <| rfl, rfl⟩

theorem scatter_law (E : FEnv) : ScatterLaw 1 V.lanes (fun mo v p o => scatter E mo v p o) 1 :=
  by
  intro mo v p o off ha ho
  obtain o0 := all1 ho
  refine bindS o0 <| ?_
  rfl

theorem print_law (E : FEnv) : PrintLaw V.lanes (print E) :=
  fun _ => rfl

theorem opLt_law (E : FEnv) : CmpLaw V.lanes (MaskKind.bits 8 : MaskKind V (BitVec 8)) (fun a b => some (opLt E a b)) E.f32.lt
    :=
  by
  intro a b
  refine ⟨(ofBools 32 [E.f32.lt a.val b.val]).setWidth 8, ?_, Nat.le_of_ble_eq_true rfl, fun i => repOf _ (Nat.le_of_ble_eq_true
      rfl) (by decide) i⟩
  change some ((b2i _).setWidth 8) = _
  rw [← BitVec.shiftLeft_zero (b2i _), mask0]

theorem opLe_law (E : FEnv) : CmpLaw V.lanes (MaskKind.bits 8 : MaskKind V (BitVec 8)) (fun a b => some (opLe E a b)) E.f32.le
    :=
  by
  intro a b
  refine ⟨(ofBools 32 [E.f32.le a.val b.val]).setWidth 8, ?_, Nat.le_of_ble_eq_true rfl, fun i => repOf _ (Nat.le_of_ble_eq_true
      rfl) (by decide) i⟩
  change some ((b2i _).setWidth 8) = _
  rw [← BitVec.shiftLeft_zero (b2i _), mask0]

theorem opEq_law (E : FEnv) : CmpLaw V.lanes (MaskKind.bits 8 : MaskKind V (BitVec 8)) (fun a b => some (opEq E a b)) E.f32.eq
    :=
  by
  intro a b
  refine ⟨(ofBools 32 [E.f32.eq a.val b.val]).setWidth 8, ?_, Nat.le_of_ble_eq_true rfl, fun i => repOf _ (Nat.le_of_ble_eq_true
      rfl) (by decide) i⟩
  change some ((b2i _).setWidth 8) = _
  rw [← BitVec.shiftLeft_zero (b2i _), mask0]

theorem opGt_law (E : FEnv) : CmpLaw V.lanes (MaskKind.bits 8 : MaskKind V (BitVec 8)) (fun a b => some (opGt E a b)) E.f32.gt
    :=
  by
  intro a b
  refine ⟨(ofBools 32 [E.f32.gt a.val b.val]).setWidth 8, ?_, Nat.le_of_ble_eq_true rfl, fun i => repOf _ (Nat.le_of_ble_eq_true
      rfl) (by decide) i⟩
  change some ((b2i _).setWidth 8) = _
  rw [← BitVec.shiftLeft_zero (b2i _), mask0]

theorem opGe_law (E : FEnv) : CmpLaw V.lanes (MaskKind.bits 8 : MaskKind V (BitVec 8)) (fun a b => some (opGe E a b)) E.f32.ge
    :=
  by
  intro a b
  refine ⟨(ofBools 32 [E.f32.ge a.val b.val]).setWidth 8, ?_, Nat.le_of_ble_eq_true rfl, fun i => repOf _ (Nat.le_of_ble_eq_true
      rfl) (by decide) i⟩
  change some ((b2i _).setWidth 8) = _
  rw [← BitVec.shiftLeft_zero (b2i _), mask0]

theorem blend_law (E : FEnv) : BlendLaw 1 V.lanes (MaskKind.bits 8 : MaskKind V (BitVec 8)) (blend E) :=
  by
  intro a m b bs hl hr
  obtain ⟨b0, rfl⟩ := len1 hl
  have hr := rep1 hr.2
  dsimp only [blend, V.lanes]
  simp only [pbit0, hr] <;> rfl

theorem any_law (E : FEnv) : AnyLaw 1 V.lanes (MaskKind.vec : MaskKind V V) (any E) :=
  by
  intro m bs hl hr
  obtain ⟨b0, rfl⟩ := len1 hl
  change [m.val] = [pat 32 b0] at hr
  simp only [List.cons.injEq, and_true] at hr
  dsimp only [any]
  simp only [_mm_castps_si128, _mm_castpd_si128, _mm256_castps_si256, _mm256_castpd_si256, _mm512_castps_si512,
      _mm512_castpd_si512, _mm_or_ps, _mm_or_pd, _mm256_or_ps, _mm256_or_pd, _mm512_or_ps, _mm512_or_pd, R4.map2, R2.map2,
      R4.map, R2.map, _mm_shuffle_ps, _mm_shuffle_pd, _mm_testz_si128, _mm256_testz_si256, _mm512_test_epi64_mask,
      _mm256_extractf128_ps, _mm256_extractf128_pd, R4.sel, R2.sel, _mm_cvtss_f32, _mm_cvtsd_f64, pat_or, pat_and_self,
      truthy32, truthy64, pat_lo, pat_hi, pat32_eq_zero, pat32_ne_zero, zero_eq_b2i, b2i_eq_one, Nat.reduceMod,
      Nat.reduceShiftRight, Nat.reduceEqDiff, if_true, if_false, reduceIte, List.cons_append, List.nil_append, ofBools_ne_zero,
      List.any, List.any_cons, List.any_nil, id, Bool.not_and, Bool.not_not, Bool.or_self, Bool.or_false, Bool.not_or,
      Bool.or_assoc, hr]
  try ac_rfl

theorem opIndex_law (E : FEnv) : IndexLaw 1 V.lanes (fun v i => some (opIndex E v i)) :=
  fun _ => ofAll1 rfl

end LFA.SV.ScalarFloat1

namespace LFA.SV.ScalarFloat2

theorem len_law : LenLaw 2 V.lanes :=
  fun _ => rfl

theorem bcast_law (E : FEnv) : BcastLaw 2 V.lanes (bcast E) :=
  fun _ => rfl

theorem opAdd_law (E : FEnv) : BinLaw V.lanes (fun a b => some (opAdd E a b)) ((LaneOps.ieee FEnv.f32).add E) :=
  binSome (fun _ _ => rfl)

theorem opSub_law (E : FEnv) : BinLaw V.lanes (fun a b => some (opSub E a b)) ((LaneOps.ieee FEnv.f32).sub E) :=
  binSome (fun _ _ => rfl)

theorem opMul_law (E : FEnv) : BinLaw V.lanes (fun a b => some (opMul E a b)) ((LaneOps.ieee FEnv.f32).mul E) :=
  binSome (fun _ _ => rfl)

theorem opDiv_law (E : FEnv) : BinLaw V.lanes (fun a b => some (opDiv E a b)) ((LaneOps.ieee FEnv.f32).div E) :=
  binSome (fun _ _ => rfl)

theorem opAddAssign_law (E : FEnv) : BinLaw V.lanes (fun a b => some (opAddAssign E a b)) ((LaneOps.ieee FEnv.f32).add E) :=
  binSome (fun _ _ => rfl)

theorem opSubAssign_law (E : FEnv) : BinLaw V.lanes (fun a b => some (opSubAssign E a b)) ((LaneOps.ieee FEnv.f32).sub E) :=
  binSome (fun _ _ => rfl)

theorem opMulAssign_law (E : FEnv) : BinLaw V.lanes (fun a b => some (opMulAssign E a b)) ((LaneOps.ieee FEnv.f32).mulA E) :=
  binSome (fun _ _ => rfl)

theorem opDivAssign_law (E : FEnv) : BinLaw V.lanes (fun a b => some (opDivAssign E a b)) ((LaneOps.ieee FEnv.f32).divA E) :=
  binSome (fun _ _ => rfl)

theorem sqrtFn_law (E : FEnv) : UnLaw V.lanes (fun a => some (sqrtFn E a)) ((LaneOps.ieee FEnv.f32).sqrt E) :=
  unSome (fun _ => rfl)

theorem sqrt_law (E : FEnv) : UnLaw V.lanes (fun a => some (sqrt E a)) ((LaneOps.ieee FEnv.f32).sqrt E) :=
  unSome (fun _ => rfl)

theorem load_law (E : FEnv) (v : V) : LoadLaw 2 V.lanes (fun m p => load E m v p) 1 :=
  by
  intro m p g _ h
  obtain ⟨h0, h1⟩ := all2 h
  exact ⟨_, bindS h0 <| bindS h1 <| rfl, rfl⟩

theorem load_aligned_law (E : FEnv) (v : V) : LoadLaw 2 V.lanes (fun m p => load_aligned E m v p) 1 :=
  by
  intro m p g ha h
  obtain ⟨v, h1, h2⟩ := load_law E v m p g ha h
  exact ⟨v, bindS h1 rfl, h2⟩

theorem ofPtr_law (E : FEnv) : LoadLaw 2 V.lanes (fun m p => ofPtr E m p) 1 :=
  by
  intro m p g ha h
  obtain ⟨v, h1, h2⟩ := load_law E _ m p g ha h
  exact ⟨v, bindS h1 rfl, h2⟩

theorem ofList_law (E : FEnv) : LoadLaw 2 V.lanes (fun m p => ofList E m p) 1 :=
  by
  intro m p g ha h
  obtain ⟨v, h1, h2⟩ := load_law E _ m p g ha h
  exact ⟨v, bindS h1 rfl, h2⟩

theorem store_law (E : FEnv) : StoreLaw 2 V.lanes (fun v p => store E v p) 1 :=
  storeOf (fun _ => rfl) fun v p _ => by
  dsimp only [store, V.lanes, st]
  simp only [List.cons_append, List.nil_append, Int.add_assoc, Int.reduceAdd, Int.add_zero]

theorem store_aligned_law (E : FEnv) : StoreLaw 2 V.lanes (fun v p => store_aligned E v p) 1 :=
  by
  intro m v p ha h
  obtain ⟨ws, m', h1, h2⟩ := store_law E m v p ha h
  exact ⟨ws, m', bindS h1 rfl, h2⟩

theorem store_nt_law (E : FEnv) : StoreLaw 2 V.lanes (fun v p => store_nt E v p) 1 :=
  by
  intro m v p ha h
  obtain ⟨ws, m', h1, h2⟩ := store_law E m v p ha h
  exact ⟨ws, m', bindS h1 rfl, h2⟩

theorem opStore_law (E : FEnv) : StoreLaw 2 V.lanes (fun v p => opStore E p v) 1 :=
  by
  intro m v p ha h
  obtain ⟨ws, m', h1, h2⟩ := store_law E m v p ha h
  exact ⟨ws, m', bindS h1 rfl, h2⟩

theorem gather_law (E : FEnv) (v : V) : GatherLaw 2 V.lanes (fun m mo p o => gather E m mo v p o) 1 true :=
  by
  intro m mo p o off g ha hn ho hg
  obtain ⟨o0, o1⟩ := all2 ho
  obtain ⟨g0, g1⟩ := all2 hg
  exact ⟨_, bindS o0 <| bindS g0 <| bindS o1 <| bindS g1 <| rfl, rfl⟩

theorem scatter_law (E : FEnv) : ScatterLaw 2 V.lanes (fun mo v p o => scatter E mo v p o) 1 :=
  by
  intro mo v p o off ha ho
  obtain ⟨o0, o1⟩ := all2 ho
  refine bindS o0 <| bindS o1 <| ?_
  simp only [List.cons_append, List.nil_append]
  rfl

theorem print_law (E : FEnv) : PrintLaw V.lanes (print E) :=
  fun _ => rfl

theorem opLt_law (E : FEnv) : CmpLaw V.lanes (MaskKind.bits 8 : MaskKind V (BitVec 8)) (fun a b => opLt E a b) E.f32.lt :=
  by
  intro a b
  refine ⟨(ofBools 32 [E.f32.lt a.val0 b.val0, E.f32.lt a.val1 b.val1]).setWidth 8, ?_, Nat.le_of_ble_eq_true rfl, fun i =>
      repOf _ (Nat.le_of_ble_eq_true rfl) (by decide) i⟩
  dsimp only [opLt]
  rw [mask0]
  exact bindS (mask1 _ _ ) <| rfl

theorem opLe_law (E : FEnv) : CmpLaw V.lanes (MaskKind.bits 8 : MaskKind V (BitVec 8)) (fun a b => opLe E a b) E.f32.le :=
  by
  intro a b
  refine ⟨(ofBools 32 [E.f32.le a.val0 b.val0, E.f32.le a.val1 b.val1]).setWidth 8, ?_, Nat.le_of_ble_eq_true rfl, fun i =>
      repOf _ (Nat.le_of_ble_eq_true rfl) (by decide) i⟩
  dsimp only [opLe]
  rw [mask0]
  exact bindS (mask1 _ _ ) <| rfl

theorem opEq_law (E : FEnv) : CmpLaw V.lanes (MaskKind.bits 8 : MaskKind V (BitVec 8)) (fun a b => opEq E a b) E.f32.eq :=
  by
  intro a b
  refine ⟨(ofBools 32 [E.f32.eq a.val0 b.val0, E.f32.eq a.val1 b.val1]).setWidth 8, ?_, Nat.le_of_ble_eq_true rfl, fun i =>
      repOf _ (Nat.le_of_ble_eq_true rfl) (by decide) i⟩
  dsimp only [opEq]
  rw [mask0]
  exact bindS (mask1 _ _ ) <| rfl

theorem opGt_law (E : FEnv) : CmpLaw V.lanes (MaskKind.bits 8 : MaskKind V (BitVec 8)) (fun a b => opGt E a b) E.f32.gt :=
  by
  intro a b
  refine ⟨(ofBools 32 [E.f32.gt a.val0 b.val0, E.f32.gt a.val1 b.val1]).setWidth 8, ?_, Nat.le_of_ble_eq_true rfl, fun i =>
      repOf _ (Nat.le_of_ble_eq_true rfl) (by decide) i⟩
  dsimp only [opGt]
  rw [mask0]
  exact bindS (mask1 _ _ ) <| rfl

theorem opGe_law (E : FEnv) : CmpLaw V.lanes (MaskKind.bits 8 : MaskKind V (BitVec 8)) (fun a b => opGe E a b) E.f32.ge :=
  by
  intro a b
  refine ⟨(ofBools 32 [E.f32.ge a.val0 b.val0, E.f32.ge a.val1 b.val1]).setWidth 8, ?_, Nat.le_of_ble_eq_true rfl, fun i =>
      repOf _ (Nat.le_of_ble_eq_true rfl) (by decide) i⟩
  dsimp only [opGe]
  rw [mask0]
  exact bindS (mask1 _ _ ) <| rfl

theorem blend_law (E : FEnv) : BlendLaw 2 V.lanes (MaskKind.bits 8 : MaskKind V (BitVec 8)) (blend E) :=
  by
  intro a m b bs hl hr
  obtain ⟨b0, b1, rfl⟩ := len2 hl
  have hr := rep2 hr.2
  dsimp only [blend, V.lanes]
  simp only [pbit0, pbit1, hr] <;> rfl

theorem any_law (E : FEnv) : AnyLaw 2 V.lanes (MaskKind.vec : MaskKind V V) (any E) :=
  by
  intro m bs hl hr
  obtain ⟨b0, b1, rfl⟩ := len2 hl
  change [m.val0, m.val1] = [pat 32 b0, pat 32 b1] at hr
  simp only [List.cons.injEq, and_true] at hr
  dsimp only [any]
  simp only [_mm_castps_si128, _mm_castpd_si128, _mm256_castps_si256, _mm256_castpd_si256, _mm512_castps_si512,
      _mm512_castpd_si512, _mm_or_ps, _mm_or_pd, _mm256_or_ps, _mm256_or_pd, _mm512_or_ps, _mm512_or_pd, R4.map2, R2.map2,
      R4.map, R2.map, _mm_shuffle_ps, _mm_shuffle_pd, _mm_testz_si128, _mm256_testz_si256, _mm512_test_epi64_mask,
      _mm256_extractf128_ps, _mm256_extractf128_pd, R4.sel, R2.sel, _mm_cvtss_f32, _mm_cvtsd_f64, pat_or, pat_and_self,
      truthy32, truthy64, pat_lo, pat_hi, pat32_eq_zero, pat32_ne_zero, zero_eq_b2i, b2i_eq_one, Nat.reduceMod,
      Nat.reduceShiftRight, Nat.reduceEqDiff, if_true, if_false, reduceIte, List.cons_append, List.nil_append, ofBools_ne_zero,
      List.any, List.any_cons, List.any_nil, id, Bool.not_and, Bool.not_not, Bool.or_self, Bool.or_false, Bool.not_or,
      Bool.or_assoc, hr]
  try ac_rfl

theorem opIndex_law (E : FEnv) : IndexLaw 2 V.lanes (fun v i => opIndex E v i) :=
  fun _ => ofAll2 ⟨rfl, rfl⟩

end LFA.SV.ScalarFloat2

namespace LFA.SV.ScalarFloat4

theorem len_law : LenLaw 4 V.lanes :=
  fun _ => rfl

theorem bcast_law (E : FEnv) : BcastLaw 4 V.lanes (bcast E) :=
  fun _ => rfl

theorem opAdd_law (E : FEnv) : BinLaw V.lanes (fun a b => some (opAdd E a b)) ((LaneOps.ieee FEnv.f32).add E) :=
  binSome (fun _ _ => rfl)

theorem opSub_law (E : FEnv) : BinLaw V.lanes (fun a b => some (opSub E a b)) ((LaneOps.ieee FEnv.f32).sub E) :=
  binSome (fun _ _ => rfl)

theorem opMul_law (E : FEnv) : BinLaw V.lanes (fun a b => some (opMul E a b)) ((LaneOps.ieee FEnv.f32).mul E) :=
  binSome (fun _ _ => rfl)

theorem opDiv_law (E : FEnv) : BinLaw V.lanes (fun a b => some (opDiv E a b)) ((LaneOps.ieee FEnv.f32).div E) :=
  binSome (fun _ _ => rfl)

theorem opAddAssign_law (E : FEnv) : BinLaw V.lanes (fun a b => some (opAddAssign E a b)) ((LaneOps.ieee FEnv.f32).add E) :=
  binSome (fun _ _ => rfl)

theorem opSubAssign_law (E : FEnv) : BinLaw V.lanes (fun a b => some (opSubAssign E a b)) ((LaneOps.ieee FEnv.f32).sub E) :=
  binSome (fun _ _ => rfl)

theorem opMulAssign_law (E : FEnv) : BinLaw V.lanes (fun a b => some (opMulAssign E a b)) ((LaneOps.ieee FEnv.f32).mulA E) :=
  binSome (fun _ _ => rfl)

theorem opDivAssign_law (E : FEnv) : BinLaw V.lanes (fun a b => some (opDivAssign E a b)) ((LaneOps.ieee FEnv.f32).divA E) :=
  binSome (fun _ _ => rfl)

theorem sqrtFn_law (E : FEnv) : UnLaw V.lanes (fun a => some (sqrtFn E a)) ((LaneOps.ieee FEnv.f32).sqrt E) :=
  unSome (fun _ => rfl)

theorem sqrt_law (E : FEnv) : UnLaw V.lanes (fun a => some (sqrt E a)) ((LaneOps.ieee FEnv.f32).sqrt E) :=
  unSome (fun _ => rfl)

theorem load_law (E : FEnv) (v : V) : LoadLaw 4 V.lanes (fun m p => load E m v p) 1 :=
  by
  intro m p g _ h
  obtain ⟨h0, h1, h2, h3⟩ := all4 h
  exact ⟨_, bindS h0 <| bindS h1 <| bindS h2 <| bindS h3 <| rfl, rfl⟩

theorem load_aligned_law (E : FEnv) (v : V) : LoadLaw 4 V.lanes (fun m p => load_aligned E m v p) 1 :=
  by
  intro m p g ha h
  obtain ⟨v, h1, h2⟩ := load_law E v m p g ha h
  exact ⟨v, bindS h1 rfl, h2⟩

theorem ofPtr_law (E : FEnv) : LoadLaw 4 V.lanes (fun m p => ofPtr E m p) 1 :=
  by
  intro m p g ha h
  obtain ⟨v, h1, h2⟩ := load_law E _ m p g ha h
  exact ⟨v, bindS h1 rfl, h2⟩

theorem ofList_law (E : FEnv) : LoadLaw 4 V.lanes (fun m p => ofList E m p) 1 :=
  by
  intro m p g ha h
  obtain ⟨v, h1, h2⟩ := load_law E _ m p g ha h
  exact ⟨v, bindS h1 rfl, h2⟩

theorem store_law (E : FEnv) : StoreLaw 4 V.lanes (fun v p => store E v p) 1 :=
  storeOf (fun _ => rfl) fun v p _ => by
  dsimp only [store, V.lanes, st]
  simp only [List.cons_append, List.nil_append, Int.add_assoc, Int.reduceAdd, Int.add_zero]

theorem store_aligned_law (E : FEnv) : StoreLaw 4 V.lanes (fun v p => store_aligned E v p) 1 :=
  by
  intro m v p ha h
  obtain ⟨ws, m', h1, h2⟩ := store_law E m v p ha h
  exact ⟨ws, m', bindS h1 rfl, h2⟩

theorem store_nt_law (E : FEnv) : StoreLaw 4 V.lanes (fun v p => store_nt E v p) 1 :=
  by
  intro m v p ha h
  obtain ⟨ws, m', h1, h2⟩ := store_law E m v p ha h
  exact ⟨ws, m', bindS h1 rfl, h2⟩

theorem opStore_law (E : FEnv) : StoreLaw 4 V.lanes (fun v p => opStore E p v) 1 :=
  by
  intro m v p ha h
  obtain ⟨ws, m', h1, h2⟩ := store_law E m v p ha h
  exact ⟨ws, m', bindS h1 rfl, h2⟩

theorem gather_law (E : FEnv) (v : V) : GatherLaw 4 V.lanes (fun m mo p o => gather E m mo v p o) 1 true :=
  by
  intro m mo p o off g ha hn ho hg
  obtain ⟨o0, o1, o2, o3⟩ := all4 ho
  obtain ⟨g0, g1, g2, g3⟩ := all4 hg
  exact ⟨_, bindS o0 <| bindS g0 <| bindS o1 <| bindS g1 <| bindS o2 <| bindS g2 <| bindS o3 <| bindS g3 <| rfl, rfl⟩

theorem scatter_law (E : FEnv) : ScatterLaw 4 V.lanes (fun mo v p o => scatter E mo v p o) 1 :=
  by
  intro mo v p o off ha ho
  obtain ⟨o0, o1, o2, o3⟩ := all4 ho
  refine bindS o0 <| bindS o1 <| bindS o2 <| bindS o3 <| ?_
  simp only [List.cons_append, List.nil_append]
  rfl

theorem print_law (E : FEnv) : PrintLaw V.lanes (print E) :=
  fun _ => rfl

theorem opLt_law (E : FEnv) : CmpLaw V.lanes (MaskKind.bits 8 : MaskKind V (BitVec 8)) (fun a b => opLt E a b) E.f32.lt :=
  by
  intro a b
  refine ⟨(ofBools 32 [E.f32.lt a.val0 b.val0, E.f32.lt a.val1 b.val1, E.f32.lt a.val2 b.val2, E.f32.lt a.val3 b.val3]).setWidth
      8, ?_, Nat.le_of_ble_eq_true rfl, fun i => repOf _ (Nat.le_of_ble_eq_true rfl) (by decide) i⟩
  dsimp only [opLt]
  rw [mask0]
  exact bindS (mask1 _ _ ) <| bindS (mask2 _ _ _ ) <| bindS (mask3 _ _ _ _ ) <| rfl

theorem opLe_law (E : FEnv) : CmpLaw V.lanes (MaskKind.bits 8 : MaskKind V (BitVec 8)) (fun a b => opLe E a b) E.f32.le :=
  by
  intro a b
  refine ⟨(ofBools 32 [E.f32.le a.val0 b.val0, E.f32.le a.val1 b.val1, E.f32.le a.val2 b.val2, E.f32.le a.val3 b.val3]).setWidth
      8, ?_, Nat.le_of_ble_eq_true rfl, fun i => repOf _ (Nat.le_of_ble_eq_true rfl) (by decide) i⟩
  dsimp only [opLe]
  rw [mask0]
  exact bindS (mask1 _ _ ) <| bindS (mask2 _ _ _ ) <| bindS (mask3 _ _ _ _ ) <| rfl

theorem opEq_law (E : FEnv) : CmpLaw V.lanes (MaskKind.bits 8 : MaskKind V (BitVec 8)) (fun a b => opEq E a b) E.f32.eq :=
  by
  intro a b
  refine ⟨(ofBools 32 [E.f32.eq a.val0 b.val0, E.f32.eq a.val1 b.val1, E.f32.eq a.val2 b.val2, E.f32.eq a.val3 b.val3]).setWidth
      8, ?_, Nat.le_of_ble_eq_true rfl, fun i => repOf _ (Nat.le_of_ble_eq_true rfl) (by decide) i⟩
  dsimp only [opEq]
  rw [mask0]
  exact bindS (mask1 _ _ ) <| bindS (mask2 _ _ _ ) <| bindS (mask3 _ _ _ _ ) <| rfl

theorem opGt_law (E : FEnv) : CmpLaw V.lanes (MaskKind.bits 8 : MaskKind V (BitVec 8)) (fun a b => opGt E a b) E.f32.gt :=
  by
  intro a b
  refine ⟨(ofBools 32 [E.f32.gt a.val0 b.val0, E.f32.gt a.val1 b.val1, E.f32.gt a.val2 b.val2, E.f32.gt a.val3 b.val3]).setWidth
      8, ?_, Nat.le_of_ble_eq_true rfl, fun i => repOf _ (Nat.le_of_ble_eq_true rfl) (by decide) i⟩
  dsimp only [opGt]
  rw [mask0]
  exact bindS (mask1 _ _ ) <| bindS (mask2 _ _ _ ) <| bindS (mask3 _ _ _ _ ) <| rfl

theorem opGe_law (E : FEnv) : CmpLaw V.lanes (MaskKind.bits 8 : MaskKind V (BitVec 8)) (fun a b => opGe E a b) E.f32.ge :=
  by
  intro a b
  refine ⟨(ofBools 32 [E.f32.ge a.val0 b.val0, E.f32.ge a.val1 b.val1, E.f32.ge a.val2 b.val2, E.f32.ge a.val3 b.val3]).setWidth
      8, ?_, Nat.le_of_ble_eq_true rfl, fun i => repOf _ (Nat.le_of_ble_eq_true rfl) (by decide) i⟩
  dsimp only [opGe]
  rw [mask0]
  exact bindS (mask1 _ _ ) <| bindS (mask2 _ _ _ ) <| bindS (mask3 _ _ _ _ ) <| rfl

theorem blend_law (E : FEnv) : BlendLaw 4 V.lanes (MaskKind.bits 8 : MaskKind V (BitVec 8)) (blend E) :=
  by
  intro a m b bs hl hr
  obtain ⟨b0, b1, b2, b3, rfl⟩ := len4 hl
  have hr := rep4 hr.2
  dsimp only [blend, V.lanes]
  simp only [pbit0, pbit1, pbit2, pbit3, hr] <;> rfl

theorem any_law (E : FEnv) : AnyLaw 4 V.lanes (MaskKind.vec : MaskKind V V) (any E) :=
  by
  intro m bs hl hr
  obtain ⟨b0, b1, b2, b3, rfl⟩ := len4 hl
  change [m.val0, m.val1, m.val2, m.val3] = [pat 32 b0, pat 32 b1, pat 32 b2, pat 32 b3] at hr
  simp only [List.cons.injEq, and_true] at hr
  dsimp only [any]
  simp only [_mm_castps_si128, _mm_castpd_si128, _mm256_castps_si256, _mm256_castpd_si256, _mm512_castps_si512,
      _mm512_castpd_si512, _mm_or_ps, _mm_or_pd, _mm256_or_ps, _mm256_or_pd, _mm512_or_ps, _mm512_or_pd, R4.map2, R2.map2,
      R4.map, R2.map, _mm_shuffle_ps, _mm_shuffle_pd, _mm_testz_si128, _mm256_testz_si256, _mm512_test_epi64_mask,
      _mm256_extractf128_ps, _mm256_extractf128_pd, R4.sel, R2.sel, _mm_cvtss_f32, _mm_cvtsd_f64, pat_or, pat_and_self,
      truthy32, truthy64, pat_lo, pat_hi, pat32_eq_zero, pat32_ne_zero, zero_eq_b2i, b2i_eq_one, Nat.reduceMod,
      Nat.reduceShiftRight, Nat.reduceEqDiff, if_true, if_false, reduceIte, List.cons_append, List.nil_append, ofBools_ne_zero,
      List.any, List.any_cons, List.any_nil, id, Bool.not_and, Bool.not_not, Bool.or_self, Bool.or_false, Bool.not_or,
      Bool.or_assoc, hr]
  try ac_rfl

theorem opIndex_law (E : FEnv) : IndexLaw 4 V.lanes (fun v i => opIndex E v i) :=
  fun _ => ofAll4 ⟨rfl, rfl, rfl, rfl⟩

end LFA.SV.ScalarFloat4

namespace LFA.SV.ScalarFloat8

theorem len_law : LenLaw 8 V.lanes :=
  fun _ => rfl

theorem bcast_law (E : FEnv) : BcastLaw 8 V.lanes (bcast E) :=
  fun _ => rfl

theorem opAdd_law (E : FEnv) : BinLaw V.lanes (fun a b => some (opAdd E a b)) ((LaneOps.ieee FEnv.f32).add E) :=
  binSome (fun _ _ => rfl)

theorem opSub_law (E : FEnv) : BinLaw V.lanes (fun a b => some (opSub E a b)) ((LaneOps.ieee FEnv.f32).sub E) :=
  binSome (fun _ _ => rfl)

theorem opMul_law (E : FEnv) : BinLaw V.lanes (fun a b => some (opMul E a b)) ((LaneOps.ieee FEnv.f32).mul E) :=
  binSome (fun _ _ => rfl)

theorem opDiv_law (E : FEnv) : BinLaw V.lanes (fun a b => some (opDiv E a b)) ((LaneOps.ieee FEnv.f32).div E) :=
  binSome (fun _ _ => rfl)

theorem opAddAssign_law (E : FEnv) : BinLaw V.lanes (fun a b => some (opAddAssign E a b)) ((LaneOps.ieee FEnv.f32).add E) :=
  binSome (fun _ _ => rfl)

theorem opSubAssign_law (E : FEnv) : BinLaw V.lanes (fun a b => some (opSubAssign E a b)) ((LaneOps.ieee FEnv.f32).sub E) :=
  binSome (fun _ _ => rfl)

theorem opMulAssign_law (E : FEnv) : BinLaw V.lanes (fun a b => some (opMulAssign E a b)) ((LaneOps.ieee FEnv.f32).mulA E) :=
  binSome (fun _ _ => rfl)

theorem opDivAssign_law (E : FEnv) : BinLaw V.lanes (fun a b => some (opDivAssign E a b)) ((LaneOps.ieee FEnv.f32).divA E) :=
  binSome (fun _ _ => rfl)

theorem sqrtFn_law (E : FEnv) : UnLaw V.lanes (fun a => some (sqrtFn E a)) ((LaneOps.ieee FEnv.f32).sqrt E) :=
  unSome (fun _ => rfl)

theorem sqrt_law (E : FEnv) : UnLaw V.lanes (fun a => some (sqrt E a)) ((LaneOps.ieee FEnv.f32).sqrt E) :=
  unSome (fun _ => rfl)

theorem load_law (E : FEnv) (v : V) : LoadLaw 8 V.lanes (fun m p => load E m v p) 1 :=
  by
  intro m p g _ h
  obtain ⟨h0, h1, h2, h3, h4, h5, h6, h7⟩ := all8 h
  exact ⟨_, bindS h0 <| bindS h1 <| bindS h2 <| bindS h3 <| bindS h4 <| bindS h5 <| bindS h6 <| bindS h7 <| rfl, rfl⟩

theorem load_aligned_law (E : FEnv) (v : V) : LoadLaw 8 V.lanes (fun m p => load_aligned E m v p) 1 :=
  by
  intro m p g ha h
  obtain ⟨v, h1, h2⟩ := load_law E v m p g ha h
  exact ⟨v, bindS h1 rfl, h2⟩

theorem ofPtr_law (E : FEnv) : LoadLaw 8 V.lanes (fun m p => ofPtr E m p) 1 :=
  by
  intro m p g ha h
  obtain ⟨v, h1, h2⟩ := load_law E _ m p g ha h
  exact ⟨v, bindS h1 rfl, h2⟩

theorem ofList_law (E : FEnv) : LoadLaw 8 V.lanes (fun m p => ofList E m p) 1 :=
  by
  intro m p g ha h
  obtain ⟨v, h1, h2⟩ := load_law E _ m p g ha h
  exact ⟨v, bindS h1 rfl, h2⟩

theorem store_law (E : FEnv) : StoreLaw 8 V.lanes (fun v p => store E v p) 1 :=
  storeOf (fun _ => rfl) fun v p _ => by
  dsimp only [store, V.lanes, st]
  simp only [List.cons_append, List.nil_append, Int.add_assoc, Int.reduceAdd, Int.add_zero]

theorem store_aligned_law (E : FEnv) : StoreLaw 8 V.lanes (fun v p => store_aligned E v p) 1 :=
  by
  intro m v p ha h
  obtain ⟨ws, m', h1, h2⟩ := store_law E m v p ha h
  exact ⟨ws, m', bindS h1 rfl, h2⟩

theorem store_nt_law (E : FEnv) : StoreLaw 8 V.lanes (fun v p => store_nt E v p) 1 :=
  by
  intro m v p ha h
  obtain ⟨ws, m', h1, h2⟩ := store_law E m v p ha h
  exact ⟨ws, m', bindS h1 rfl, h2⟩

theorem opStore_law (E : FEnv) : StoreLaw 8 V.lanes (fun v p => opStore E p v) 1 :=
  by
  intro m v p ha h
  obtain ⟨ws, m', h1, h2⟩ := store_law E m v p ha h
  exact ⟨ws, m', bindS h1 rfl, h2⟩

theorem gather_law (E : FEnv) (v : V) : GatherLaw 8 V.lanes (fun m mo p o => gather E m mo v p o) 1 true :=
  by
  intro m mo p o off g ha hn ho hg
  obtain ⟨o0, o1, o2, o3, o4, o5, o6, o7⟩ := all8 ho
  obtain ⟨g0, g1, g2, g3, g4, g5, g6, g7⟩ := all8 hg
  exact ⟨_, bindS o0 <| bindS g0 <| bindS o1 <| bindS g1 <| bindS o2 <| bindS g2 <| bindS o3 <| bindS g3 <| bindS o4 <| bindS g4
      <| bindS o5 <| bindS g5 <| bindS o6 <| bindS g6 <| bindS o7 <| bindS g7 <| rfl, rfl⟩

theorem scatter_law (E : FEnv) : ScatterLaw 8 V.lanes (fun mo v p o => scatter E mo v p o) 1 :=
  by
  intro mo v p o off ha ho
  obtain ⟨o0, o1, o2, o3, o4, o5, o6, o7⟩ := all8 ho
  refine bindS o0 <| bindS o1 <| bindS o2 <| bindS o3 <| bindS o4 <| bindS o5 <| bindS o6 <| bindS o7 <| ?_
  simp only [List.cons_append, List.nil_append]
  rfl

theorem print_law (E : FEnv) : PrintLaw V.lanes (print E) :=
  fun _ => rfl

theorem opLt_law (E : FEnv) : CmpLaw V.lanes (MaskKind.bits 8 : MaskKind V (BitVec 8)) (fun a b => opLt E a b) E.f32.lt :=
  by
  intro a b
  refine ⟨(ofBools 32 [E.f32.lt a.val0 b.val0, E.f32.lt a.val1 b.val1, E.f32.lt a.val2 b.val2, E.f32.lt a.val3 b.val3, E.f32.lt
      a.val4 b.val4, E.f32.lt a.val5 b.val5, E.f32.lt a.val6 b.val6, E.f32.lt a.val7 b.val7]).setWidth 8, ?_,
      Nat.le_of_ble_eq_true rfl, fun i => repOf _ (Nat.le_of_ble_eq_true rfl) (by decide) i⟩
  dsimp only [opLt]
  rw [mask0]
  exact bindS (mask1 _ _ ) <| bindS (mask2 _ _ _ ) <| bindS (mask3 _ _ _ _ ) <| bindS (mask4 _ _ _ _ _ ) <| bindS (mask5 _ _ _ _
      _ _ ) <| bindS (mask6 _ _ _ _ _ _ _ ) <| bindS (mask7 _ _ _ _ _ _ _ _ ) <| rfl

theorem opLe_law (E : FEnv) : CmpLaw V.lanes (MaskKind.bits 8 : MaskKind V (BitVec 8)) (fun a b => opLe E a b) E.f32.le :=
  by
  intro a b
  refine ⟨(ofBools 32 [E.f32.le a.val0 b.val0, E.f32.le a.val1 b.val1, E.f32.le a.val2 b.val2, E.f32.le a.val3 b.val3, E.f32.le
      a.val4 b.val4, E.f32.le a.val5 b.val5, E.f32.le a.val6 b.val6, E.f32.le a.val7 b.val7]).setWidth 8, ?_,
      Nat.le_of_ble_eq_true rfl, fun i => repOf _ (Nat.le_of_ble_eq_true rfl) (by decide) i⟩
  dsimp only [opLe]
  rw [mask0]
  exact bindS (mask1 _ _ ) <| bindS (mask2 _ _ _ ) <| bindS (mask3 _ _ _ _ ) <| bindS (mask4 _ _ _ _ _ ) <| bindS (mask5 _ _ _ _
      _ _ ) <| bindS (mask6 _ _ _ _ _ _ _ ) <| bindS (mask7 _ _ _ _ _ _ _ _ ) <| rfl

theorem opEq_law (E : FEnv) : CmpLaw V.lanes (MaskKind.bits 8 : MaskKind V (BitVec 8)) (fun a b => opEq E a b) E.f32.eq :=
  by
  intro a b
  refine ⟨(ofBools 32 [E.f32.eq a.val0 b.val0, E.f32.eq a.val1 b.val1, E.f32.eq a.val2 b.val2, E.f32.eq a.val3 b.val3, E.f32.eq
      a.val4 b.val4, E.f32.eq a.val5 b.val5, E.f32.eq a.val6 b.val6, E.f32.eq a.val7 b.val7]).setWidth 8, ?_,
      Nat.le_of_ble_eq_true rfl, fun i => repOf _ (Nat.le_of_ble_eq_true rfl) (by decide) i⟩
  dsimp only [opEq]
  rw [mask0]
  exact bindS (mask1 _ _ ) <| bindS (mask2 _ _ _ ) <| bindS (mask3 _ _ _ _ ) <| bindS (mask4 _ _ _ _ _ ) <| bindS (mask5 _ _ _ _
      _ _ ) <| bindS (mask6 _ _ _ _ _ _ _ ) <| bindS (mask7 _ _ _ _ _ _ _ _ ) <| rfl

theorem opGt_law (E : FEnv) : CmpLaw V.lanes (MaskKind.bits 8 : MaskKind V (BitVec 8)) (fun a b => opGt E a b) E.f32.gt :=
  by
  intro a b
  refine ⟨(ofBools 32 [E.f32.gt a.val0 b.val0, E.f32.gt a.val1 b.val1, E.f32.gt a.val2 b.val2, E.f32.gt a.val3 b.val3, E.f32.gt
      a.val4 b.val4, E.f32.gt a.val5 b.val5, E.f32.gt a.val6 b.val6, E.f32.gt a.val7 b.val7]).setWidth 8, ?_,
      Nat.le_of_ble_eq_true rfl, fun i => repOf _ (Nat.le_of_ble_eq_true rfl) (by decide) i⟩
  dsimp only [opGt]
  rw [mask0]
  exact bindS (mask1 _ _ ) <| bindS (mask2 _ _ _ ) <| bindS (mask3 _ _ _ _ ) <| bindS (mask4 _ _ _ _ _ ) <| bindS (mask5 _ _ _ _
      _ _ ) <| bindS (mask6 _ _ _ _ _ _ _ ) <| bindS (mask7 _ _ _ _ _ _ _ _ ) <| rfl

theorem opGe_law (E : FEnv) : CmpLaw V.lanes (MaskKind.bits 8 : MaskKind V (BitVec 8)) (fun a b => opGe E a b) E.f32.ge :=
  by
  intro a b
  refine ⟨(ofBools 32 [E.f32.ge a.val0 b.val0, E.f32.ge a.val1 b.val1, E.f32.ge a.val2 b.val2, E.f32.ge a.val3 b.val3, E.f32.ge
      a.val4 b.val4, E.f32.ge a.val5 b.val5, E.f32.ge a.val6 b.val6, E.f32.ge a.val7 b.val7]).setWidth 8, ?_,
      Nat.le_of_ble_eq_true rfl, fun i => repOf _ (Nat.le_of_ble_eq_true rfl) (by decide) i⟩
  dsimp only [opGe]
  rw [mask0]
  exact bindS (mask1 _ _ ) <| bindS (mask2 _ _ _ ) <| bindS (mask3 _ _ _ _ ) <| bindS (mask4 _ _ _ _ _ ) <| bindS (mask5 _ _ _ _
      _ _ ) <| bindS (mask6 _ _ _ _ _ _ _ ) <| bindS (mask7 _ _ _ _ _ _ _ _ ) <| rfl

theorem blend_law (E : FEnv) : BlendLaw 8 V.lanes (MaskKind.bits 8 : MaskKind V (BitVec 8)) (blend E) :=
  by
  intro a m b bs hl hr
  obtain ⟨b0, b1, b2, b3, b4, b5, b6, b7, rfl⟩ := len8 hl
  have hr := rep8 hr.2
  dsimp only [blend, V.lanes]
  simp only [pbit0, pbit1, pbit2, pbit3, pbit4, pbit5, pbit6, pbit7, hr] <;> rfl

theorem any_law (E : FEnv) : AnyLaw 8 V.lanes (MaskKind.vec : MaskKind V V) (any E) :=
  by
  intro m bs hl hr
  obtain ⟨b0, b1, b2, b3, b4, b5, b6, b7, rfl⟩ := len8 hl
  change [m.val0, m.val1, m.val2, m.val3, m.val4, m.val5, m.val6, m.val7] = [pat 32 b0, pat 32 b1, pat 32 b2, pat 32 b3, pat 32
      b4, pat 32 b5, pat 32 b6, pat 32 b7] at hr
  simp only [List.cons.injEq, and_true] at hr
  dsimp only [any]
  simp only [_mm_castps_si128, _mm_castpd_si128, _mm256_castps_si256, _mm256_castpd_si256, _mm512_castps_si512,
      _mm512_castpd_si512, _mm_or_ps, _mm_or_pd, _mm256_or_ps, _mm256_or_pd, _mm512_or_ps, _mm512_or_pd, R4.map2, R2.map2,
      R4.map, R2.map, _mm_shuffle_ps, _mm_shuffle_pd, _mm_testz_si128, _mm256_testz_si256, _mm512_test_epi64_mask,
      _mm256_extractf128_ps, _mm256_extractf128_pd, R4.sel, R2.sel, _mm_cvtss_f32, _mm_cvtsd_f64, pat_or, pat_and_self,
      truthy32, truthy64, pat_lo, pat_hi, pat32_eq_zero, pat32_ne_zero, zero_eq_b2i, b2i_eq_one, Nat.reduceMod,
      Nat.reduceShiftRight, Nat.reduceEqDiff, if_true, if_false, reduceIte, List.cons_append, List.nil_append, ofBools_ne_zero,
      List.any, List.any_cons, List.any_nil, id, Bool.not_and, Bool.not_not, Bool.or_self, Bool.or_false, Bool.not_or,
      Bool.or_assoc, hr]
  try ac_rfl

theorem opIndex_law (E : FEnv) : IndexLaw 8 V.lanes (fun v i => opIndex E v i) :=
  fun _ => ofAll8 ⟨rfl, rfl, rfl, rfl, rfl, rfl, rfl, rfl⟩

end LFA.SV.ScalarFloat8

namespace LFA.SV.ScalarFloat16

theorem len_law : LenLaw 16 V.lanes :=
  fun _ => rfl

theorem bcast_law (E : FEnv) : BcastLaw 16 V.lanes (bcast E) :=
  fun _ => rfl

theorem opAdd_law (E : FEnv) : BinLaw V.lanes (fun a b => some (opAdd E a b)) ((LaneOps.ieee FEnv.f32).add E) :=
  binSome (fun _ _ => rfl)

theorem opSub_law (E : FEnv) : BinLaw V.lanes (fun a b => some (opSub E a b)) ((LaneOps.ieee FEnv.f32).sub E) :=
  binSome (fun _ _ => rfl)

theorem opMul_law (E : FEnv) : BinLaw V.lanes (fun a b => some (opMul E a b)) ((LaneOps.ieee FEnv.f32).mul E) :=
  binSome (fun _ _ => rfl)

theorem opDiv_law (E : FEnv) : BinLaw V.lanes (fun a b => some (opDiv E a b)) ((LaneOps.ieee FEnv.f32).div E) :=
  binSome (fun _ _ => rfl)

theorem opAddAssign_law (E : FEnv) : BinLaw V.lanes (fun a b => some (opAddAssign E a b)) ((LaneOps.ieee FEnv.f32).add E) :=
  binSome (fun _ _ => rfl)

theorem opSubAssign_law (E : FEnv) : BinLaw V.lanes (fun a b => some (opSubAssign E a b)) ((LaneOps.ieee FEnv.f32).sub E) :=
  binSome (fun _ _ => rfl)

theorem opMulAssign_law (E : FEnv) : BinLaw V.lanes (fun a b => some (opMulAssign E a b)) ((LaneOps.ieee FEnv.f32).mulA E) :=
  binSome (fun _ _ => rfl)

theorem opDivAssign_law (E : FEnv) : BinLaw V.lanes (fun a b => some (opDivAssign E a b)) ((LaneOps.ieee FEnv.f32).divA E) :=
  binSome (fun _ _ => rfl)

theorem sqrtFn_law (E : FEnv) : UnLaw V.lanes (fun a => some (sqrtFn E a)) ((LaneOps.ieee FEnv.f32).sqrt E) :=
  unSome (fun _ => rfl)

theorem sqrt_law (E : FEnv) : UnLaw V.lanes (fun a => some (sqrt E a)) ((LaneOps.ieee FEnv.f32).sqrt E) :=
  unSome (fun _ => rfl)

theorem load_law (E : FEnv) (v : V) : LoadLaw 16 V.lanes (fun m p => load E m v p) 1 :=
  by
  intro m p g _ h
  obtain ⟨h0, h1, h2, h3, h4, h5, h6, h7, h8, h9, h10, h11, h12, h13, h14, h15⟩ := all16 h
  exact ⟨_, bindS h0 <| bindS h1 <| bindS h2 <| bindS h3 <| bindS h4 <| bindS h5 <| bindS h6 <| bindS h7 <| bindS h8 <| bindS h9
      <| bindS h10 <| bindS h11 <| bindS h12 <| bindS h13 <| bindS h14 <| bindS h15 <| rfl, rfl⟩

theorem load_aligned_law (E : FEnv) (v : V) : LoadLaw 16 V.lanes (fun m p => load_aligned E m v p) 1 :=
  by
  intro m p g ha h
  obtain ⟨v, h1, h2⟩ := load_law E v m p g ha h
  exact ⟨v, bindS h1 rfl, h2⟩

theorem ofPtr_law (E : FEnv) : LoadLaw 16 V.lanes (fun m p => ofPtr E m p) 1 :=
  by
  intro m p g ha h
  obtain ⟨v, h1, h2⟩ := load_law E _ m p g ha h
  exact ⟨v, bindS h1 rfl, h2⟩

theorem ofList_law (E : FEnv) : LoadLaw 16 V.lanes (fun m p => ofList E m p) 1 :=
  by
  intro m p g ha h
  obtain ⟨v, h1, h2⟩ := load_law E _ m p g ha h
  exact ⟨v, bindS h1 rfl, h2⟩

theorem store_law (E : FEnv) : StoreLaw 16 V.lanes (fun v p => store E v p) 1 :=
  storeOf (fun _ => rfl) fun v p _ => by
  dsimp only [store, V.lanes, st]
  simp only [List.cons_append, List.nil_append, Int.add_assoc, Int.reduceAdd, Int.add_zero]

theorem store_aligned_law (E : FEnv) : StoreLaw 16 V.lanes (fun v p => store_aligned E v p) 1 :=
  by
  intro m v p ha h
  obtain ⟨ws, m', h1, h2⟩ := store_law E m v p ha h
  exact ⟨ws, m', bindS h1 rfl, h2⟩

theorem store_nt_law (E : FEnv) : StoreLaw 16 V.lanes (fun v p => store_nt E v p) 1 :=
  by
  intro m v p ha h
  obtain ⟨ws, m', h1, h2⟩ := store_law E m v p ha h
  exact ⟨ws, m', bindS h1 rfl, h2⟩

theorem opStore_law (E : FEnv) : StoreLaw 16 V.lanes (fun v p => opStore E p v) 1 :=
  by
  intro m v p ha h
  obtain ⟨ws, m', h1, h2⟩ := store_law E m v p ha h
  exact ⟨ws, m', bindS h1 rfl, h2⟩

theorem gather_law (E : FEnv) (v : V) : GatherLaw 16 V.lanes (fun m mo p o => gather E m mo v p o) 1 true :=
  by
  intro m mo p o off g ha hn ho hg
  obtain ⟨o0, o1, o2, o3, o4, o5, o6, o7, o8, o9, o10, o11, o12, o13, o14, o15⟩ := all16 ho
  obtain ⟨g0, g1, g2, g3, g4, g5, g6, g7, g8, g9, g10, g11, g12, g13, g14, g15⟩ := all16 hg
  exact ⟨_, bindS o0 <| bindS g0 <| bindS o1 <| bindS g1 <| bindS o2 <| bindS g2 <| bindS o3 <| bindS g3 <| bindS o4 <| bindS g4
      <| bindS o5 <| bindS g5 <| bindS o6 <| bindS g6 <| bindS o7 <| bindS g7 <| bindS o8 <| bindS g8 <| bindS o9 <| bindS g9 <|
      bindS o10 <| bindS g10 <| bindS o11 <| bindS g11 <| bindS o12 <| bindS g12 <| bindS o13 <| bindS g13 <| bindS o14 <| bindS
      g14 <| bindS o15 <| bindS g15 <| rfl, rfl⟩

theorem scatter_law (E : FEnv) : ScatterLaw 16 V.lanes (fun mo v p o => scatter E mo v p o) 1 :=
  by
  intro mo v p o off ha ho
  obtain ⟨o0, o1, o2, o3, o4, o5, o6, o7, o8, o9, o10, o11, o12, o13, o14, o15⟩ := all16 ho
  refine bindS o0 <| bindS o1 <| bindS o2 <| bindS o3 <| bindS o4 <| bindS o5 <| bindS o6 <| bindS o7 <| bindS o8 <| bindS o9 <|
      bindS o10 <| bindS o11 <| bindS o12 <| bindS o13 <| bindS o14 <| bindS o15 <| ?_
  simp only [List.cons_append, List.nil_append]
  rfl

theorem print_law (E : FEnv) : PrintLaw V.lanes (print E) :=
  fun _ => rfl

theorem opLt_law (E : FEnv) : CmpLaw V.lanes (MaskKind.bits 16 : MaskKind V (BitVec 16)) (fun a b => opLt E a b) E.f32.lt :=
  by
  intro a b
  refine ⟨(ofBools 32 [E.f32.lt a.val0 b.val0, E.f32.lt a.val1 b.val1, E.f32.lt a.val2 b.val2, E.f32.lt a.val3 b.val3, E.f32.lt
      a.val4 b.val4, E.f32.lt a.val5 b.val5, E.f32.lt a.val6 b.val6, E.f32.lt a.val7 b.val7, E.f32.lt a.val8 b.val8, E.f32.lt
      a.val9 b.val9, E.f32.lt a.val10 b.val10, E.f32.lt a.val11 b.val11, E.f32.lt a.val12 b.val12, E.f32.lt a.val13 b.val13,
      E.f32.lt a.val14 b.val14, E.f32.lt a.val15 b.val15]).setWidth 16, ?_, Nat.le_of_ble_eq_true rfl, fun i => repOf _
      (Nat.le_of_ble_eq_true rfl) (by decide) i⟩
  dsimp only [opLt]
  rw [mask0]
  exact bindS (mask1 _ _ ) <| bindS (mask2 _ _ _ ) <| bindS (mask3 _ _ _ _ ) <| bindS (mask4 _ _ _ _ _ ) <| bindS (mask5 _ _ _ _
      _ _ ) <| bindS (mask6 _ _ _ _ _ _ _ ) <| bindS (mask7 _ _ _ _ _ _ _ _ ) <| bindS (mask8 _ _ _ _ _ _ _ _ _ ) <| bindS
      (mask9 _ _ _ _ _ _ _ _ _ _ ) <| bindS (mask10 _ _ _ _ _ _ _ _ _ _ _ ) <| bindS (mask11 _ _ _ _ _ _ _ _ _ _ _ _ ) <| bindS
      (mask12 _ _ _ _ _ _ _ _ _ _ _ _ _ ) <| bindS (mask13 _ _ _ _ _ _ _ _ _ _ _ _ _ _ ) <| bindS (mask14 _ _ _ _ _ _ _ _ _ _ _
      _ _ _ _ ) <| bindS (mask15 _ _ _ _ _ _ _ _ _ _ _ _ _ _ _ _ ) <| rfl

theorem opLe_law (E : FEnv) : CmpLaw V.lanes (MaskKind.bits 16 : MaskKind V (BitVec 16)) (fun a b => opLe E a b) E.f32.le :=
  by
  intro a b
  refine ⟨(ofBools 32 [E.f32.le a.val0 b.val0, E.f32.le a.val1 b.val1, E.f32.le a.val2 b.val2, E.f32.le a.val3 b.val3, E.f32.le
      a.val4 b.val4, E.f32.le a.val5 b.val5, E.f32.le a.val6 b.val6, E.f32.le a.val7 b.val7, E.f32.le a.val8 b.val8, E.f32.le
      a.val9 b.val9, E.f32.le a.val10 b.val10, E.f32.le a.val11 b.val11, E.f32.le a.val12 b.val12, E.f32.le a.val13 b.val13,
      E.f32.le a.val14 b.val14, E.f32.le a.val15 b.val15]).setWidth 16, ?_, Nat.le_of_ble_eq_true rfl, fun i => repOf _
      (Nat.le_of_ble_eq_true rfl) (by decide) i⟩
  dsimp only [opLe]
  rw [mask0]
  exact bindS (mask1 _ _ ) <| bindS (mask2 _ _ _ ) <| bindS (mask3 _ _ _ _ ) <| bindS (mask4 _ _ _ _ _ ) <| bindS (mask5 _ _ _ _
      _ _ ) <| bindS (mask6 _ _ _ _ _ _ _ ) <| bindS (mask7 _ _ _ _ _ _ _ _ ) <| bindS (mask8 _ _ _ _ _ _ _ _ _ ) <| bindS
      (mask9 _ _ _ _ _ _ _ _ _ _ ) <| bindS (mask10 _ _ _ _ _ _ _ _ _ _ _ ) <| bindS (mask11 _ _ _ _ _ _ _ _ _ _ _ _ ) <| bindS
      (mask12 _ _ _ _ _ _ _ _ _ _ _ _ _ ) <| bindS (mask13 _ _ _ _ _ _ _ _ _ _ _ _ _ _ ) <| bindS (mask14 _ _ _ _ _ _ _ _ _ _ _
      _ _ _ _ ) <| bindS (mask15 _ _ _ _ _ _ _ _ _ _ _ _ _ _ _ _ ) <| rfl

theorem opEq_law (E : FEnv) : CmpLaw V.lanes (MaskKind.bits 16 : MaskKind V (BitVec 16)) (fun a b => opEq E a b) E.f32.eq :=
  by
  intro a b
  refine ⟨(ofBools 32 [E.f32.eq a.val0 b.val0, E.f32.eq a.val1 b.val1, E.f32.eq a.val2 b.val2, E.f32.eq a.val3 b.val3, E.f32.eq
      a.val4 b.val4, E.f32.eq a.val5 b.val5, E.f32.eq a.val6 b.val6, E.f32.eq a.val7 b.val7, E.f32.eq a.val8 b.val8, E.f32.eq
      a.val9 b.val9, E.f32.eq a.val10 b.val10, E.f32.eq a.val11 b.val11, E.f32.eq a.val12 b.val12, E.f32.eq a.val13 b.val13,
      E.f32.eq a.val14 b.val14, E.f32.eq a.val15 b.val15]).setWidth 16, ?_, Nat.le_of_ble_eq_true rfl, fun i => repOf _
      (Nat.le_of_ble_eq_true rfl) (by decide) i⟩
  dsimp only [opEq]
  rw [mask0]
  exact bindS (mask1 _ _ ) <| bindS (mask2 _ _ _ ) <| bindS (mask3 _ _ _ _ ) <| bindS (mask4 _ _ _ _ _ ) <| bindS (mask5 _ _ _ _
      _ _ ) <| bindS (mask6 _ _ _ _ _ _ _ ) <| bindS (mask7 _ _ _ _ _ _ _ _ ) <| bindS (mask8 _ _ _ _ _ _ _ _ _ ) <| bindS
      (mask9 _ _ _ _ _ _ _ _ _ _ ) <| bindS (mask10 _ _ _ _ _ _ _ _ _ _ _ ) <| bindS (mask11 _ _ _ _ _ _ _ _ _ _ _ _ ) <| bindS
      (mask12 _ _ _ _ _ _ _ _ _ _ _ _ _ ) <| bindS (mask13 _ _ _ _ _ _ _ _ _ _ _ _ _ _ ) <| bindS (mask14 _ _ _ _ _ _ _ _ _ _ _
      _ _ _ _ ) <| bindS (mask15 _ _ _ _ _ _ _ _ _ _ _ _ _ _ _ _ ) <| rfl

theorem opGt_law (E : FEnv) : CmpLaw V.lanes (MaskKind.bits 16 : MaskKind V (BitVec 16)) (fun a b => opGt E a b) E.f32.gt :=
  by
  intro a b
  refine ⟨(ofBools 32 [E.f32.gt a.val0 b.val0, E.f32.gt a.val1 b.val1, E.f32.gt a.val2 b.val2, E.f32.gt a.val3 b.val3, E.f32.gt
      a.val4 b.val4, E.f32.gt a.val5 b.val5, E.f32.gt a.val6 b.val6, E.f32.gt a.val7 b.val7, E.f32.gt a.val8 b.val8, E.f32.gt
      a.val9 b.val9, E.f32.gt a.val10 b.val10, E.f32.gt a.val11 b.val11, E.f32.gt a.val12 b.val12, E.f32.gt a.val13 b.val13,
      E.f32.gt a.val14 b.val14, E.f32.gt a.val15 b.val15]).setWidth 16, ?_, Nat.le_of_ble_eq_true rfl, fun i => repOf _
      (Nat.le_of_ble_eq_true rfl) (by decide) i⟩
  dsimp only [opGt]
  rw [mask0]
  exact bindS (mask1 _ _ ) <| bindS (mask2 _ _ _ ) <| bindS (mask3 _ _ _ _ ) <| bindS (mask4 _ _ _ _ _ ) <| bindS (mask5 _ _ _ _
      _ _ ) <| bindS (mask6 _ _ _ _ _ _ _ ) <| bindS (mask7 _ _ _ _ _ _ _ _ ) <| bindS (mask8 _ _ _ _ _ _ _ _ _ ) <| bindS
      (mask9 _ _ _ _ _ _ _ _ _ _ ) <| bindS (mask10 _ _ _ _ _ _ _ _ _ _ _ ) <| bindS (mask11 _ _ _ _ _ _ _ _ _ _ _ _ ) <| bindS
      (mask12 _ _ _ _ _ _ _ _ _ _ _ _ _ ) <| bindS (mask13 _ _ _ _ _ _ _ _ _ _ _ _ _ _ ) <| bindS (mask14 _ _ _ _ _ _ _ _ _ _ _
      _ _ _ _ ) <| bindS (mask15 _ _ _ _ _ _ _ _ _ _ _ _ _ _ _ _ ) <| rfl

theorem opGe_law (E : FEnv) : CmpLaw V.lanes (MaskKind.bits 16 : MaskKind V (BitVec 16)) (fun a b => opGe E a b) E.f32.ge :=
  by
  intro a b
  refine ⟨(ofBools 32 [E.f32.ge a.val0 b.val0, E.f32.ge a.val1 b.val1, E.f32.ge a.val2 b.val2, E.f32.ge a.val3 b.val3, E.f32.ge
      a.val4 b.val4, E.f32.ge a.val5 b.val5, E.f32.ge a.val6 b.val6, E.f32.ge a.val7 b.val7, E.f32.ge a.val8 b.val8, E.f32.ge
      a.val9 b.val9, E.f32.ge a.val10 b.val10, E.f32.ge a.val11 b.val11, E.f32.ge a.val12 b.val12, E.f32.ge a.val13 b.val13,
      E.f32.ge a.val14 b.val14, E.f32.ge a.val15 b.val15]).setWidth 16, ?_, Nat.le_of_ble_eq_true rfl, fun i => repOf _
      (Nat.le_of_ble_eq_true rfl) (by decide) i⟩
  dsimp only [opGe]
  rw [mask0]
  exact bindS (mask1 _ _ ) <| bindS (mask2 _ _ _ ) <| bindS (mask3 _ _ _ _ ) <| bindS (mask4 _ _ _ _ _ ) <| bindS (mask5 _ _ _ _
      _ _ ) <| bindS (mask6 _ _ _ _ _ _ _ ) <| bindS (mask7 _ _ _ _ _ _ _ _ ) <| bindS (mask8 _ _ _ _ _ _ _ _ _ ) <| bindS
      (mask9 _ _ _ _ _ _ _ _ _ _ ) <| bindS (mask10 _ _ _ _ _ _ _ _ _ _ _ ) <| bindS (mask11 _ _ _ _ _ _ _ _ _ _ _ _ ) <| bindS
      (mask12 _ _ _ _ _ _ _ _ _ _ _ _ _ ) <| bindS (mask13 _ _ _ _ _ _ _ _ _ _ _ _ _ _ ) <| bindS (mask14 _ _ _ _ _ _ _ _ _ _ _
      _ _ _ _ ) <| bindS (mask15 _ _ _ _ _ _ _ _ _ _ _ _ _ _ _ _ ) <| rfl

theorem blend_law (E : FEnv) : BlendLaw 16 V.lanes (MaskKind.bits 16 : MaskKind V (BitVec 16)) (blend E) :=
  by
  intro a m b bs hl hr
  obtain ⟨b0, b1, b2, b3, b4, b5, b6, b7, b8, b9, b10, b11, b12, b13, b14, b15, rfl⟩ := len16 hl
  have hr := rep16 hr.2
  dsimp only [blend, V.lanes]
  simp only [pbit0, pbit1, pbit2, pbit3, pbit4, pbit5, pbit6, pbit7, pbit8, pbit9, pbit10, pbit11, pbit12, pbit13, pbit14,
      pbit15, hr] <;> rfl

theorem any_law (E : FEnv) : AnyLaw 16 V.lanes (MaskKind.vec : MaskKind V V) (any E) :=
  by
  intro m bs hl hr
  obtain ⟨b0, b1, b2, b3, b4, b5, b6, b7, b8, b9, b10, b11, b12, b13, b14, b15, rfl⟩ := len16 hl
  change [m.val0, m.val1, m.val2, m.val3, m.val4, m.val5, m.val6, m.val7, m.val8, m.val9, m.val10, m.val11, m.val12, m.val13,
      m.val14, m.val15] = [pat 32 b0, pat 32 b1, pat 32 b2, pat 32 b3, pat 32 b4, pat 32 b5, pat 32 b6, pat 32 b7, pat 32 b8,
      pat 32 b9, pat 32 b10, pat 32 b11, pat 32 b12, pat 32 b13, pat 32 b14, pat 32 b15] at hr
  simp only [List.cons.injEq, and_true] at hr
  dsimp only [any]
  simp only [_mm_castps_si128, _mm_castpd_si128, _mm256_castps_si256, _mm256_castpd_si256, _mm512_castps_si512,
      _mm512_castpd_si512, _mm_or_ps, _mm_or_pd, _mm256_or_ps, _mm256_or_pd, _mm512_or_ps, _mm512_or_pd, R4.map2, R2.map2,
      R4.map, R2.map, _mm_shuffle_ps, _mm_shuffle_pd, _mm_testz_si128, _mm256_testz_si256, _mm512_test_epi64_mask,
      _mm256_extractf128_ps, _mm256_extractf128_pd, R4.sel, R2.sel, _mm_cvtss_f32, _mm_cvtsd_f64, pat_or, pat_and_self,
      truthy32, truthy64, pat_lo, pat_hi, pat32_eq_zero, pat32_ne_zero, zero_eq_b2i, b2i_eq_one, Nat.reduceMod,
      Nat.reduceShiftRight, Nat.reduceEqDiff, if_true, if_false, reduceIte, List.cons_append, List.nil_append, ofBools_ne_zero,
      List.any, List.any_cons, List.any_nil, id, Bool.not_and, Bool.not_not, Bool.or_self, Bool.or_false, Bool.not_or,
      Bool.or_assoc, hr]
  try ac_rfl

theorem opIndex_law (E : FEnv) : IndexLaw 16 V.lanes (fun v i => opIndex E v i) :=
  fun _ => ofAll16 ⟨rfl, rfl, rfl, rfl, rfl, rfl, rfl, rfl, rfl, rfl, rfl, rfl, rfl, rfl, rfl, rfl⟩

end LFA.SV.ScalarFloat16

namespace LFA.SV.ScalarFloat32

theorem len_law : LenLaw 32 V.lanes :=
  fun _ => rfl

theorem bcast_law (E : FEnv) : BcastLaw 32 V.lanes (bcast E) :=
  fun _ => rfl

theorem opAdd_law (E : FEnv) : BinLaw V.lanes (fun a b => some (opAdd E a b)) ((LaneOps.ieee FEnv.f32).add E) :=
  binSome (fun _ _ => rfl)

theorem opSub_law (E : FEnv) : BinLaw V.lanes (fun a b => some (opSub E a b)) ((LaneOps.ieee FEnv.f32).sub E) :=
  binSome (fun _ _ => rfl)

theorem opMul_law (E : FEnv) : BinLaw V.lanes (fun a b => some (opMul E a b)) ((LaneOps.ieee FEnv.f32).mul E) :=
  binSome (fun _ _ => rfl)

theorem opDiv_law (E : FEnv) : BinLaw V.lanes (fun a b => some (opDiv E a b)) ((LaneOps.ieee FEnv.f32).div E) :=
  binSome (fun _ _ => rfl)

theorem opAddAssign_law (E : FEnv) : BinLaw V.lanes (fun a b => some (opAddAssign E a b)) ((LaneOps.ieee FEnv.f32).add E) :=
  binSome (fun _ _ => rfl)

theorem opSubAssign_law (E : FEnv) : BinLaw V.lanes (fun a b => some (opSubAssign E a b)) ((LaneOps.ieee FEnv.f32).sub E) :=
  binSome (fun _ _ => rfl)

theorem opMulAssign_law (E : FEnv) : BinLaw V.lanes (fun a b => some (opMulAssign E a b)) ((LaneOps.ieee FEnv.f32).mulA E) :=
  binSome (fun _ _ => rfl)

theorem opDivAssign_law (E : FEnv) : BinLaw V.lanes (fun a b => some (opDivAssign E a b)) ((LaneOps.ieee FEnv.f32).divA E) :=
  binSome (fun _ _ => rfl)

theorem sqrtFn_law (E : FEnv) : UnLaw V.lanes (fun a => some (sqrtFn E a)) ((LaneOps.ieee FEnv.f32).sqrt E) :=
  unSome (fun _ => rfl)

theorem sqrt_law (E : FEnv) : UnLaw V.lanes (fun a => some (sqrt E a)) ((LaneOps.ieee FEnv.f32).sqrt E) :=
  unSome (fun _ => rfl)

theorem load_law (E : FEnv) (v : V) : LoadLaw 32 V.lanes (fun m p => load E m v p) 1 :=
  by
  intro m p g _ h
  obtain ⟨h0, h1, h2, h3, h4, h5, h6, h7, h8, h9, h10, h11, h12, h13, h14, h15, h16, h17, h18, h19, h20, h21, h22, h23, h24,
      h25, h26, h27, h28, h29, h30, h31⟩ := all32 h
  exact ⟨_, bindS h0 <| bindS h1 <| bindS h2 <| bindS h3 <| bindS h4 <| bindS h5 <| bindS h6 <| bindS h7 <| bindS h8 <| bindS h9
      <| bindS h10 <| bindS h11 <| bindS h12 <| bindS h13 <| bindS h14 <| bindS h15 <| bindS h16 <| bindS h17 <| bindS h18 <|
      bindS h19 <| bindS h20 <| bindS h21 <| bindS h22 <| bindS h23 <| bindS h24 <| bindS h25 <| bindS h26 <| bindS h27 <| bindS
      h28 <| bindS h29 <| bindS h30 <| bindS h31 <| rfl, rfl⟩

theorem load_aligned_law (E : FEnv) (v : V) : LoadLaw 32 V.lanes (fun m p => load_aligned E m v p) 1 :=
  by
  intro m p g ha h
  obtain ⟨v, h1, h2⟩ := load_law E v m p g ha h
  exact ⟨v, bindS h1 rfl, h2⟩

theorem ofPtr_law (E : FEnv) : LoadLaw 32 V.lanes (fun m p => ofPtr E m p) 1 :=
  by
  intro m p g ha h
  obtain ⟨v, h1, h2⟩ := load_law E _ m p g ha h
  exact ⟨v, bindS h1 rfl, h2⟩

theorem ofList_law (E : FEnv) : LoadLaw 32 V.lanes (fun m p => ofList E m p) 1 :=
  by
  intro m p g ha h
  obtain ⟨v, h1, h2⟩ := load_law E _ m p g ha h
  exact ⟨v, bindS h1 rfl, h2⟩

theorem store_law (E : FEnv) : StoreLaw 32 V.lanes (fun v p => store E v p) 1 :=
  storeOf (fun _ => rfl) fun v p _ => by
  dsimp only [store, V.lanes, st]
  simp only [List.cons_append, List.nil_append, Int.add_assoc, Int.reduceAdd, Int.add_zero]

theorem store_aligned_law (E : FEnv) : StoreLaw 32 V.lanes (fun v p => store_aligned E v p) 1 :=
  by
  intro m v p ha h
  obtain ⟨ws, m', h1, h2⟩ := store_law E m v p ha h
  exact ⟨ws, m', bindS h1 rfl, h2⟩

theorem store_nt_law (E : FEnv) : StoreLaw 32 V.lanes (fun v p => store_nt E v p) 1 :=
  by
  intro m v p ha h
  obtain ⟨ws, m', h1, h2⟩ := store_law E m v p ha h
  exact ⟨ws, m', bindS h1 rfl, h2⟩

theorem opStore_law (E : FEnv) : StoreLaw 32 V.lanes (fun v p => opStore E p v) 1 :=
  by
  intro m v p ha h
  obtain ⟨ws, m', h1, h2⟩ := store_law E m v p ha h
  exact ⟨ws, m', bindS h1 rfl, h2⟩

theorem gather_law (E : FEnv) (v : V) : GatherLaw 32 V.lanes (fun m mo p o => gather E m mo v p o) 1 true :=
  by
  intro m mo p o off g ha hn ho hg
  obtain ⟨o0, o1, o2, o3, o4, o5, o6, o7, o8, o9, o10, o11, o12, o13, o14, o15, o16, o17, o18, o19, o20, o21, o22, o23, o24,
      o25, o26, o27, o28, o29, o30, o31⟩ := all32 ho
  obtain ⟨g0, g1, g2, g3, g4, g5, g6, g7, g8, g9, g10, g11, g12, g13, g14, g15, g16, g17, g18, g19, g20, g21, g22, g23, g24,
      g25, g26, g27, g28, g29, g30, g31⟩ := all32 hg
  exact ⟨_, bindS o0 <| bindS g0 <| bindS o1 <| bindS g1 <| bindS o2 <| bindS g2 <| bindS o3 <| bindS g3 <| bindS o4 <| bindS g4
      <| bindS o5 <| bindS g5 <| bindS o6 <| bindS g6 <| bindS o7 <| bindS g7 <| bindS o8 <| bindS g8 <| bindS o9 <| bindS g9 <|
      bindS o10 <| bindS g10 <| bindS o11 <| bindS g11 <| bindS o12 <| bindS g12 <| bindS o13 <| bindS g13 <| bindS o14 <| bindS
      g14 <| bindS o15 <| bindS g15 <| bindS o16 <| bindS g16 <| bindS o17 <| bindS g17 <| bindS o18 <| bindS g18 <| bindS o19
      <| bindS g19 <| bindS o20 <| bindS g20 <| bindS o21 <| bindS g21 <| bindS o22 <| bindS g22 <| bindS o23 <| bindS g23 <|
      bindS o24 <| bindS g24 <| bindS o25 <| bindS g25 <| bindS o26 <| bindS g26 <| bindS o27 <| bindS g27 <| bindS o28 <| bindS
      g28 <| bindS o29 <| bindS g29 <| bindS o30 <| bindS g30 <| bindS o31 <| bindS g31 <| rfl, rfl⟩

theorem scatter_law (E : FEnv) : ScatterLaw 32 V.lanes (fun mo v p o => scatter E mo v p o) 1 :=
  by
  intro mo v p o off ha ho
  obtain ⟨o0, o1, o2, o3, o4, o5, o6, o7, o8, o9, o10, o11, o12, o13, o14, o15, o16, o17, o18, o19, o20, o21, o22, o23, o24,
      o25, o26, o27, o28, o29, o30, o31⟩ := all32 ho
  refine bindS o0 <| bindS o1 <| bindS o2 <| bindS o3 <| bindS o4 <| bindS o5 <| bindS o6 <| bindS o7 <| bindS o8 <| bindS o9 <|
      bindS o10 <| bindS o11 <| bindS o12 <| bindS o13 <| bindS o14 <| bindS o15 <| bindS o16 <| bindS o17 <| bindS o18 <| bindS
      o19 <| bindS o20 <| bindS o21 <| bindS o22 <| bindS o23 <| bindS o24 <| bindS o25 <| bindS o26 <| bindS o27 <| bindS o28
      <| bindS o29 <| bindS o30 <| bindS o31 <| ?_
  simp only [List.cons_append, List.nil_append]
  rfl

theorem print_law (E : FEnv) : PrintLaw V.lanes (print E) :=
  fun _ => rfl

theorem opLt_law (E : FEnv) : CmpLaw V.lanes (MaskKind.bits 32 : MaskKind V (BitVec 32)) (fun a b => opLt E a b) E.f32.lt :=
  by
  intro a b
  refine ⟨(ofBools 32 [E.f32.lt a.val0 b.val0, E.f32.lt a.val1 b.val1, E.f32.lt a.val2 b.val2, E.f32.lt a.val3 b.val3, E.f32.lt
      a.val4 b.val4, E.f32.lt a.val5 b.val5, E.f32.lt a.val6 b.val6, E.f32.lt a.val7 b.val7, E.f32.lt a.val8 b.val8, E.f32.lt
      a.val9 b.val9, E.f32.lt a.val10 b.val10, E.f32.lt a.val11 b.val11, E.f32.lt a.val12 b.val12, E.f32.lt a.val13 b.val13,
      E.f32.lt a.val14 b.val14, E.f32.lt a.val15 b.val15, E.f32.lt a.val16 b.val16, E.f32.lt a.val17 b.val17, E.f32.lt a.val18
      b.val18, E.f32.lt a.val19 b.val19, E.f32.lt a.val20 b.val20, E.f32.lt a.val21 b.val21, E.f32.lt a.val22 b.val22, E.f32.lt
      a.val23 b.val23, E.f32.lt a.val24 b.val24, E.f32.lt a.val25 b.val25, E.f32.lt a.val26 b.val26, E.f32.lt a.val27 b.val27,
      E.f32.lt a.val28 b.val28, E.f32.lt a.val29 b.val29, E.f32.lt a.val30 b.val30, E.f32.lt a.val31 b.val31]), ?_,
      Nat.le_of_ble_eq_true rfl, fun i => ofBools_getLsbD _ _ (Nat.le_of_ble_eq_true rfl) i⟩
  dsimp only [opLt]
  rw [mask0]
  exact bindS (mask1 _ _ ) <| bindS (mask2 _ _ _ ) <| bindS (mask3 _ _ _ _ ) <| bindS (mask4 _ _ _ _ _ ) <| bindS (mask5 _ _ _ _
      _ _ ) <| bindS (mask6 _ _ _ _ _ _ _ ) <| bindS (mask7 _ _ _ _ _ _ _ _ ) <| bindS (mask8 _ _ _ _ _ _ _ _ _ ) <| bindS
      (mask9 _ _ _ _ _ _ _ _ _ _ ) <| bindS (mask10 _ _ _ _ _ _ _ _ _ _ _ ) <| bindS (mask11 _ _ _ _ _ _ _ _ _ _ _ _ ) <| bindS
      (mask12 _ _ _ _ _ _ _ _ _ _ _ _ _ ) <| bindS (mask13 _ _ _ _ _ _ _ _ _ _ _ _ _ _ ) <| bindS (mask14 _ _ _ _ _ _ _ _ _ _ _
      _ _ _ _ ) <| bindS (mask15 _ _ _ _ _ _ _ _ _ _ _ _ _ _ _ _ ) <| bindS (mask16 _ _ _ _ _ _ _ _ _ _ _ _ _ _ _ _ _ ) <| bindS
      (mask17 _ _ _ _ _ _ _ _ _ _ _ _ _ _ _ _ _ _ ) <| bindS (mask18 _ _ _ _ _ _ _ _ _ _ _ _ _ _ _ _ _ _ _ ) <| bindS (mask19 _
      _ _ _ _ _ _ _ _ _ _ _ _ _ _ _ _ _ _ _ ) <| bindS (mask20 _ _ _ _ _ _ _ _ _ _ _ _ _ _ _ _ _ _ _ _ _ ) <| bindS (mask21 _ _
      _ _ _ _ _ _ _ _ _ _ _ _ _ _ _ _ _ _ _ _ ) <| bindS (mask22 _ _ _ _ _ _ _ _ _ _ _ _ _ _ _ _ _ _ _ _ _ _ _ ) <| bindS
      (mask23 _ _ _ _ _ _ _ _ _ _ _ _ _ _ _ _ _ _ _ _ _ _ _ _ ) <| bindS (mask24 _ _ _ _ _ _ _ _ _ _ _ _ _ _ _ _ _ _ _ _ _ _ _ _
      _ ) <| bindS (mask25 _ _ _ _ _ _ _ _ _ _ _ _ _ _ _ _ _ _ _ _ _ _ _ _ _ _ ) <| bindS (mask26 _ _ _ _ _ _ _ _ _ _ _ _ _ _ _
      _ _ _ _ _ _ _ _ _ _ _ _ ) <| bindS (mask27 _ _ _ _ _ _ _ _ _ _ _ _ _ _ _ _ _ _ _ _ _ _ _ _ _ _ _ _ ) <| bindS (mask28 _ _
      _ _ _ _ _ _ _ _ _ _ _ _ _ _ _ _ _ _ _ _ _ _ _ _ _ _ _ ) <| bindS (mask29 _ _ _ _ _ _ _ _ _ _ _ _ _ _ _ _ _ _ _ _ _ _ _ _ _
      _ _ _ _ _ ) <| bindS (mask30 _ _ _ _ _ _ _ _ _ _ _ _ _ _ _ _ _ _ _ _ _ _ _ _ _ _ _ _ _ _ _ ) <| bindS (mask31 _ _ _ _ _ _
      _ _ _ _ _ _ _ _ _ _ _ _ _ _ _ _ _ _ _ _ _ _ _ _ _ _ ) <| rfl

theorem opLe_law (E : FEnv) : CmpLaw V.lanes (MaskKind.bits 32 : MaskKind V (BitVec 32)) (fun a b => opLe E a b) E.f32.le :=
  by
  intro a b
  refine ⟨(ofBools 32 [E.f32.le a.val0 b.val0, E.f32.le a.val1 b.val1, E.f32.le a.val2 b.val2, E.f32.le a.val3 b.val3, E.f32.le
      a.val4 b.val4, E.f32.le a.val5 b.val5, E.f32.le a.val6 b.val6, E.f32.le a.val7 b.val7, E.f32.le a.val8 b.val8, E.f32.le
      a.val9 b.val9, E.f32.le a.val10 b.val10, E.f32.le a.val11 b.val11, E.f32.le a.val12 b.val12, E.f32.le a.val13 b.val13,
      E.f32.le a.val14 b.val14, E.f32.le a.val15 b.val15, E.f32.le a.val16 b.val16, E.f32.le a.val17 b.val17, E.f32.le a.val18
      b.val18, E.f32.le a.val19 b.val19, E.f32.le a.val20 b.val20, E.f32.le a.val21 b.val21, E.f32.le a.val22 b.val22, E.f32.le
      a.val23 b.val23, E.f32.le a.val24 b.val24, E.f32.le a.val25 b.val25, E.f32.le a.val26 b.val26, E.f32.le a.val27 b.val27,
      E.f32.le a.val28 b.val28, E.f32.le a.val29 b.val29, E.f32.le a.val30 b.val30, E.f32.le a.val31 b.val31]), ?_,
      Nat.le_of_ble_eq_true rfl, fun i => ofBools_getLsbD _ _ (Nat.le_of_ble_eq_true rfl) i⟩
  dsimp only [opLe]
  rw [mask0]
  exact bindS (mask1 _ _ ) <| bindS (mask2 _ _ _ ) <| bindS (mask3 _ _ _ _ ) <| bindS (mask4 _ _ _ _ _ ) <| bindS (mask5 _ _ _ _
      _ _ ) <| bindS (mask6 _ _ _ _ _ _ _ ) <| bindS (mask7 _ _ _ _ _ _ _ _ ) <| bindS (mask8 _ _ _ _ _ _ _ _ _ ) <| bindS
      (mask9 _ _ _ _ _ _ _ _ _ _ ) <| bindS (mask10 _ _ _ _ _ _ _ _ _ _ _ ) <| bindS (mask11 _ _ _ _ _ _ _ _ _ _ _ _ ) <| bindS
      (mask12 _ _ _ _ _ _ _ _ _ _ _ _ _ ) <| bindS (mask13 _ _ _ _ _ _ _ _ _ _ _ _ _ _ ) <| bindS (mask14 _ _ _ _ _ _ _ _ _ _ _
      _ _ _ _ ) <| bindS (mask15 _ _ _ _ _ _ _ _ _ _ _ _ _ _ _ _ ) <| bindS (mask16 _ _ _ _ _ _ _ _ _ _ _ _ _ _ _ _ _ ) <| bindS
      (mask17 _ _ _ _ _ _ _ _ _ _ _ _ _ _ _ _ _ _ ) <| bindS (mask18 _ _ _ _ _ _ _ _ _ _ _ _ _ _ _ _ _ _ _ ) <| bindS (mask19 _
      _ _ _ _ _ _ _ _ _ _ _ _ _ _ _ _ _ _ _ ) <| bindS (mask20 _ _ _ _ _ _ _ _ _ _ _ _ _ _ _ _ _ _ _ _ _ ) <| bindS (mask21 _ _
      _ _ _ _ _ _ _ _ _ _ _ _ _ _ _ _ _ _ _ _ ) <| bindS (mask22 _ _ _ _ _ _ _ _ _ _ _ _ _ _ _ _ _ _ _ _ _ _ _ ) <| bindS
      (mask23 _ _ _ _ _ _ _ _ _ _ _ _ _ _ _ _ _ _ _ _ _ _ _ _ ) <| bindS (mask24 _ _ _ _ _ _ _ _ _ _ _ _ _ _ _ _ _ _ _ _ _ _ _ _
      _ ) <| bindS (mask25 _ _ _ _ _ _ _ _ _ _ _ _ _ _ _ _ _ _ _ _ _ _ _ _ _ _ ) <| bindS (mask26 _ _ _ _ _ _ _ _ _ _ _ _ _ _ _
      _ _ _ _ _ _ _ _ _ _ _ _ ) <| bindS (mask27 _ _ _ _ _ _ _ _ _ _ _ _ _ _ _ _ _ _ _ _ _ _ _ _ _ _ _ _ ) <| bindS (mask28 _ _
      _ _ _ _ _ _ _ _ _ _ _ _ _ _ _ _ _ _ _ _ _ _ _ _ _ _ _ ) <| bindS (mask29 _ _ _ _ _ _ _ _ _ _ _ _ _ _ _ _ _ _ _ _ _ _ _ _ _
      _ _ _ _ _ ) <| bindS (mask30 _ _ _ _ _ _ _ _ _ _ _ _ _ _ _ _ _ _ _ _ _ _ _ _ _ _ _ _ _ _ _ ) <| bindS (mask31 _ _ _ _ _ _
      _ _ _ _ _ _ _ _ _ _ _ _ _ _ _ _ _ _ _ _ _ _ _ _ _ _ ) <| rfl

theorem opEq_law (E : FEnv) : CmpLaw V.lanes (MaskKind.bits 32 : MaskKind V (BitVec 32)) (fun a b => opEq E a b) E.f32.eq :=
  by
  intro a b
  refine ⟨(ofBools 32 [E.f32.eq a.val0 b.val0, E.f32.eq a.val1 b.val1, E.f32.eq a.val2 b.val2, E.f32.eq a.val3 b.val3, E.f32.eq
      a.val4 b.val4, E.f32.eq a.val5 b.val5, E.f32.eq a.val6 b.val6, E.f32.eq a.val7 b.val7, E.f32.eq a.val8 b.val8, E.f32.eq
      a.val9 b.val9, E.f32.eq a.val10 b.val10, E.f32.eq a.val11 b.val11, E.f32.eq a.val12 b.val12, E.f32.eq a.val13 b.val13,
      E.f32.eq a.val14 b.val14, E.f32.eq a.val15 b.val15, E.f32.eq a.val16 b.val16, E.f32.eq a.val17 b.val17, E.f32.eq a.val18
      b.val18, E.f32.eq a.val19 b.val19, E.f32.eq a.val20 b.val20, E.f32.eq a.val21 b.val21, E.f32.eq a.val22 b.val22, E.f32.eq
      a.val23 b.val23, E.f32.eq a.val24 b.val24, E.f32.eq a.val25 b.val25, E.f32.eq a.val26 b.val26, E.f32.eq a.val27 b.val27,
      E.f32.eq a.val28 b.val28, E.f32.eq a.val29 b.val29, E.f32.eq a.val30 b.val30, E.f32.eq a.val31 b.val31]), ?_,
      Nat.le_of_ble_eq_true rfl, fun i => ofBools_getLsbD _ _ (Nat.le_of_ble_eq_true rfl) i⟩
  dsimp only [opEq]
  rw [mask0]
  exact bindS (mask1 _ _ ) <| bindS (mask2 _ _ _ ) <| bindS (mask3 _ _ _ _ ) <| bindS (mask4 _ _ _ _ _ ) <| bindS (mask5 _ _ _ _
      _ _ ) <| bindS (mask6 _ _ _ _ _ _ _ ) <| bindS (mask7 _ _ _ _ _ _ _ _ ) <| bindS (mask8 _ _ _ _ _ _ _ _ _ ) <| bindS
      (mask9 _ _ _ _ _ _ _ _ _ _ ) <| bindS (mask10 _ _ _ _ _ _ _ _ _ _ _ ) <| bindS (mask11 _ _ _ _ _ _ _ _ _ _ _ _ ) <| bindS
      (mask12 _ _ _ _ _ _ _ _ _ _ _ _ _ ) <| bindS (mask13 _ _ _ _ _ _ _ _ _ _ _ _ _ _ ) <| bindS (mask14 _ _ _ _ _ _ _ _ _ _ _
      _ _ _ _ ) <| bindS (mask15 _ _ _ _ _ _ _ _ _ _ _ _ _ _ _ _ ) <| bindS (mask16 _ _ _ _ _ _ _ _ _ _ _ _ _ _ _ _ _ ) <| bindS
      (mask17 _ _ _ _ _ _ _ _ _ _ _ _ _ _ _ _ _ _ ) <| bindS (mask18 _ _ _ _ _ _ _ _ _ _ _ _ _ _ _ _ _ _ _ ) <| bindS (mask19 _
      _ _ _ _ _ _ _ _ _ _ _ _ _ _ _ _ _ _ _ ) <| bindS (mask20 _ _ _ _ _ _ _ _ _ _ _ _ _ _ _ _ _ _ _ _ _ ) <| bindS (mask21 _ _
      _ _ _ _ _ _ _ _ _ _ _ _ _ _ _ _ _ _ _ _ ) <| bindS (mask22 _ _ _ _ _ _ _ _ _ _ _ _ _ _ _ _ _ _ _ _ _ _ _ ) <| bindS
      (mask23 _ _ _ _ _ _ _ _ _ _ _ _ _ _ _ _ _ _ _ _ _ _ _ _ ) <| bindS (mask24 _ _ _ _ _ _ _ _ _ _ _ _ _ _ _ _ _ _ _ _ _ _ _ _
      _ ) <| bindS (mask25 _ _ _ _ _ _ _ _ _ _ _ _ _ _ _ _ _ _ _ _ _ _ _ _ _ _ ) <| bindS (mask26 _ _ _ _ _ _ _ _ _ _ _ _ _ _ _
      _ _ _ _ _ _ _ _ _ _ _ _ ) <| bindS (mask27 _ _ _ _ _ _ _ _ _ _ _ _ _ _ _ _ _ _ _ _ _ _ _ _ _ _ _ _ ) <| bindS (mask28 _ _
      _ _ _ _ _ _ _ _ _ _ _ _ _ _ _ _ _ _ _ _ _ _ _ _ _ _ _ ) <| bindS (mask29 _ _ _ _ _ _ _ _ _ _ _ _ _ _ _ _ _ _ _ _ _ _ _ _ _
      _ _ _ _ _ ) <| bindS (mask30 _ _ _ _ _ _ _ _ _ _ _ _ _ _ _ _ _ _ _ _ _ _ _ _ _ _ _ _ _ _ _ ) <| bindS (mask31 _ _ _ _ _ _
      _ _ _ _ _ _ _ _ _ _ _ _ _ _ _ _ _ _ _ _ _ _ _ _ _ _ ) <| rfl

theorem opGt_law (E : FEnv) : CmpLaw V.lanes (MaskKind.bits 32 : MaskKind V (BitVec 32)) (fun a b => opGt E a b) E.f32.gt :=
  by
  intro a b
  refine ⟨(ofBools 32 [E.f32.gt a.val0 b.val0, E.f32.gt a.val1 b.val1, E.f32.gt a.val2 b.val2, E.f32.gt a.val3 b.val3, E.f32.gt
      a.val4 b.val4, E.f32.gt a.val5 b.val5, E.f32.gt a.val6 b.val6, E.f32.gt a.val7 b.val7, E.f32.gt a.val8 b.val8, E.f32.gt
      a.val9 b.val9, E.f32.gt a.val10 b.val10, E.f32.gt a.val11 b.val11, E.f32.gt a.val12 b.val12, E.f32.gt a.val13 b.val13,
      E.f32.gt a.val14 b.val14, E.f32.gt a.val15 b.val15, E.f32.gt a.val16 b.val16, E.f32.gt a.val17 b.val17, E.f32.gt a.val18
      b.val18, E.f32.gt a.val19 b.val19, E.f32.gt a.val20 b.val20, E.f32.gt a.val21 b.val21, E.f32.gt a.val22 b.val22, E.f32.gt
      a.val23 b.val23, E.f32.gt a.val24 b.val24, E.f32.gt a.val25 b.val25, E.f32.gt a.val26 b.val26, E.f32.gt a.val27 b.val27,
      E.f32.gt a.val28 b.val28, E.f32.gt a.val29 b.val29, E.f32.gt a.val30 b.val30, E.f32.gt a.val31 b.val31]), ?_,
      Nat.le_of_ble_eq_true rfl, fun i => ofBools_getLsbD _ _ (Nat.le_of_ble_eq_true rfl) i⟩
  dsimp only [opGt]
  rw [mask0]
  exact bindS (mask1 _ _ ) <| bindS (mask2 _ _ _ ) <| bindS (mask3 _ _ _ _ ) <| bindS (mask4 _ _ _ _ _ ) <| bindS (mask5 _ _ _ _
      _ _ ) <| bindS (mask6 _ _ _ _ _ _ _ ) <| bindS (mask7 _ _ _ _ _ _ _ _ ) <| bindS (mask8 _ _ _ _ _ _ _ _ _ ) <| bindS
      (mask9 _ _ _ _ _ _ _ _ _ _ ) <| bindS (mask10 _ _ _ _ _ _ _ _ _ _ _ ) <| bindS (mask11 _ _ _ _ _ _ _ _ _ _ _ _ ) <| bindS
      (mask12 _ _ _ _ _ _ _ _ _ _ _ _ _ ) <| bindS (mask13 _ _ _ _ _ _ _ _ _ _ _ _ _ _ ) <| bindS (mask14 _ _ _ _ _ _ _ _ _ _ _
      _ _ _ _ ) <| bindS (mask15 _ _ _ _ _ _ _ _ _ _ _ _ _ _ _ _ ) <| bindS (mask16 _ _ _ _ _ _ _ _ _ _ _ _ _ _ _ _ _ ) <| bindS
      (mask17 _ _ _ _ _ _ _ _ _ _ _ _ _ _ _ _ _ _ ) <| bindS (mask18 _ _ _ _ _ _ _ _ _ _ _ _ _ _ _ _ _ _ _ ) <| bindS (mask19 _
      _ _ _ _ _ _ _ _ _ _ _ _ _ _ _ _ _ _ _ ) <| bindS (mask20 _ _ _ _ _ _ _ _ _ _ _ _ _ _ _ _ _ _ _ _ _ ) <| bindS (mask21 _ _
      _ _ _ _ _ _ _ _ _ _ _ _ _ _ _ _ _ _ _ _ ) <| bindS (mask22 _ _ _ _ _ _ _ _ _ _ _ _ _ _ _ _ _ _ _ _ _ _ _ ) <| bindS
      (mask23 _ _ _ _ _ _ _ _ _ _ _ _ _ _ _ _ _ _ _ _ _ _ _ _ ) <| bindS (mask24 _ _ _ _ _ _ _ _ _ _ _ _ _ _ _ _ _ _ _ _ _ _ _ _
      _ ) <| bindS (mask25 _ _ _ _ _ _ _ _ _ _ _ _ _ _ _ _ _ _ _ _ _ _ _ _ _ _ ) <| bindS (mask26 _ _ _ _ _ _ _ _ _ _ _ _ _ _ _
      _ _ _ _ _ _ _ _ _ _ _ _ ) <| bindS (mask27 _ _ _ _ _ _ _ _ _ _ _ _ _ _ _ _ _ _ _ _ _ _ _ _ _ _ _ _ ) <| bindS (mask28 _ _
      _ _ _ _ _ _ _ _ _ _ _ _ _ _ _ _ _ _ _ _ _ _ _ _ _ _ _ ) <| bindS (mask29 _ _ _ _ _ _ _ _ _ _ _ _ _ _ _ _ _ _ _ _ _ _ _ _ _
      _ _ _ _ _ ) <| bindS (mask30 _ _ _ _ _ _ _ _ _ _ _ _ _ _ _ _ _ _ _ _ _ _ _ _ _ _ _ _ _ _ _ ) <| bindS (mask31 _ _ _ _ _ _
      _ _ _ _ _ _ _ _ _ _ _ _ _ _ _ _ _ _ _ _ _ _ _ _ _ _ ) <| rfl

theorem opGe_law (E : FEnv) : CmpLaw V.lanes (MaskKind.bits 32 : MaskKind V (BitVec 32)) (fun a b => opGe E a b) E.f32.ge :=
  by
  intro a b
  refine ⟨(ofBools 32 [E.f32.ge a.val0 b.val0, E.f32.ge a.val1 b.val1, E.f32.ge a.val2 b.val2, E.f32.ge a.val3 b.val3, E.f32.ge
      a.val4 b.val4, E.f32.ge a.val5 b.val5, E.f32.ge a.val6 b.val6, E.f32.ge a.val7 b.val7, E.f32.ge a.val8 b.val8, E.f32.ge
      a.val9 b.val9, E.f32.ge a.val10 b.val10, E.f32.ge a.val11 b.val11, E.f32.ge a.val12 b.val12, E.f32.ge a.val13 b.val13,
      E.f32.ge a.val14 b.val14, E.f32.ge a.val15 b.val15, E.f32.ge a.val16 b.val16, E.f32.ge a.val17 b.val17, E.f32.ge a.val18
      b.val18, E.f32.ge a.val19 b.val19, E.f32.ge a.val20 b.val20, E.f32.ge a.val21 b.val21, E.f32.ge a.val22 b.val22, E.f32.ge
      a.val23 b.val23, E.f32.ge a.val24 b.val24, E.f32.ge a.val25 b.val25, E.f32.ge a.val26 b.val26, E.f32.ge a.val27 b.val27,
      E.f32.ge a.val28 b.val28, E.f32.ge a.val29 b.val29, E.f32.ge a.val30 b.val30, E.f32.ge a.val31 b.val31]), ?_,
      Nat.le_of_ble_eq_true rfl, fun i => ofBools_getLsbD _ _ (Nat.le_of_ble_eq_true rfl) i⟩
  dsimp only [opGe]
  rw [mask0]
  exact bindS (mask1 _ _ ) <| bindS (mask2 _ _ _ ) <| bindS (mask3 _ _ _ _ ) <| bindS (mask4 _ _ _ _ _ ) <| bindS (mask5 _ _ _ _
      _ _ ) <| bindS (mask6 _ _ _ _ _ _ _ ) <| bindS (mask7 _ _ _ _ _ _ _ _ ) <| bindS (mask8 _ _ _ _ _ _ _ _ _ ) <| bindS
      (mask9 _ _ _ _ _ _ _ _ _ _ ) <| bindS (mask10 _ _ _ _ _ _ _ _ _ _ _ ) <| bindS (mask11 _ _ _ _ _ _ _ _ _ _ _ _ ) <| bindS
      (mask12 _ _ _ _ _ _ _ _ _ _ _ _ _ ) <| bindS (mask13 _ _ _ _ _ _ _ _ _ _ _ _ _ _ ) <| bindS (mask14 _ _ _ _ _ _ _ _ _ _ _
      _ _ _ _ ) <| bindS (mask15 _ _ _ _ _ _ _ _ _ _ _ _ _ _ _ _ ) <| bindS (mask16 _ _ _ _ _ _ _ _ _ _ _ _ _ _ _ _ _ ) <| bindS
      (mask17 _ _ _ _ _ _ _ _ _ _ _ _ _ _ _ _ _ _ ) <| bindS (mask18 _ _ _ _ _ _ _ _ _ _ _ _ _ _ _ _ _ _ _ ) <| bindS (mask19 _
      _ _ _ _ _ _ _ _ _ _ _ _ _ _ _ _ _ _ _ ) <| bindS (mask20 _ _ _ _ _ _ _ _ _ _ _ _ _ _ _ _ _ _ _ _ _ ) <| bindS (mask21 _ _
      _ _ _ _ _ _ _ _ _ _ _ _ _ _ _ _ _ _ _ _ ) <| bindS (mask22 _ _ _ _ _ _ _ _ _ _ _ _ _ _ _ _ _ _ _ _ _ _ _ ) <| bindS
      (mask23 _ _ _ _ _ _ _ _ _ _ _ _ _ _ _ _ _ _ _ _ _ _ _ _ ) <| bindS (mask24 _ _ _ _ _ _ _ _ _ _ _ _ _ _ _ _ _ _ _ _ _ _ _ _
      _ ) <| bindS (mask25 _ _ _ _ _ _ _ _ _ _ _ _ _ _ _ _ _ _ _ _ _ _ _ _ _ _ ) <| bindS (mask26 _ _ _ _ _ _ _ _ _ _ _ _ _ _ _
      _ _ _ _ _ _ _ _ _ _ _ _ ) <| bindS (mask27 _ _ _ _ _ _ _ _ _ _ _ _ _ _ _ _ _ _ _ _ _ _ _ _ _ _ _ _ ) <| bindS (mask28 _ _
      _ _ _ _ _ _ _ _ _ _ _ _ _ _ _ _ _ _ _ _ _ _ _ _ _ _ _ ) <| bindS (mask29 _ _ _ _ _ _ _ _ _ _ _ _ _ _ _ _ _ _ _ _ _ _ _ _ _
      _ _ _ _ _ ) <| bindS (mask30 _ _ _ _ _ _ _ _ _ _ _ _ _ _ _ _ _ _ _ _ _ _ _ _ _ _ _ _ _ _ _ ) <| bindS (mask31 _ _ _ _ _ _
      _ _ _ _ _ _ _ _ _ _ _ _ _ _ _ _ _ _ _ _ _ _ _ _ _ _ ) <| rfl

theorem blend_law (E : FEnv) : BlendLaw 32 V.lanes (MaskKind.bits 32 : MaskKind V (BitVec 32)) (blend E) :=
  by
  intro a m b bs hl hr
  obtain ⟨b0, b1, b2, b3, b4, b5, b6, b7, b8, b9, b10, b11, b12, b13, b14, b15, b16, b17, b18, b19, b20, b21, b22, b23, b24,
      b25, b26, b27, b28, b29, b30, b31, rfl⟩ := len32 hl
  have hr := rep32 hr.2
  dsimp only [blend, V.lanes]
  simp only [bit0, bit1, bit2, bit3, bit4, bit5, bit6, bit7, bit8, bit9, bit10, bit11, bit12, bit13, bit14, bit15, bit16, bit17,
      bit18, bit19, bit20, bit21, bit22, bit23, bit24, bit25, bit26, bit27, bit28, bit29, bit30, bit31, hr] <;> rfl

theorem any_law (E : FEnv) : AnyLaw 32 V.lanes (MaskKind.vec : MaskKind V V) (any E) :=
  by
  intro m bs hl hr
  obtain ⟨b0, b1, b2, b3, b4, b5, b6, b7, b8, b9, b10, b11, b12, b13, b14, b15, b16, b17, b18, b19, b20, b21, b22, b23, b24,
      b25, b26, b27, b28, b29, b30, b31, rfl⟩ := len32 hl
  change [m.val0, m.val1, m.val2, m.val3, m.val4, m.val5, m.val6, m.val7, m.val8, m.val9, m.val10, m.val11, m.val12, m.val13,
      m.val14, m.val15, m.val16, m.val17, m.val18, m.val19, m.val20, m.val21, m.val22, m.val23, m.val24, m.val25, m.val26,
      m.val27, m.val28, m.val29, m.val30, m.val31] = [pat 32 b0, pat 32 b1, pat 32 b2, pat 32 b3, pat 32 b4, pat 32 b5, pat 32
      b6, pat 32 b7, pat 32 b8, pat 32 b9, pat 32 b10, pat 32 b11, pat 32 b12, pat 32 b13, pat 32 b14, pat 32 b15, pat 32 b16,
      pat 32 b17, pat 32 b18, pat 32 b19, pat 32 b20, pat 32 b21, pat 32 b22, pat 32 b23, pat 32 b24, pat 32 b25, pat 32 b26,
      pat 32 b27, pat 32 b28, pat 32 b29, pat 32 b30, pat 32 b31] at hr
  simp only [List.cons.injEq, and_true] at hr
  dsimp only [any]
  simp only [_mm_castps_si128, _mm_castpd_si128, _mm256_castps_si256, _mm256_castpd_si256, _mm512_castps_si512,
      _mm512_castpd_si512, _mm_or_ps, _mm_or_pd, _mm256_or_ps, _mm256_or_pd, _mm512_or_ps, _mm512_or_pd, R4.map2, R2.map2,
      R4.map, R2.map, _mm_shuffle_ps, _mm_shuffle_pd, _mm_testz_si128, _mm256_testz_si256, _mm512_test_epi64_mask,
      _mm256_extractf128_ps, _mm256_extractf128_pd, R4.sel, R2.sel, _mm_cvtss_f32, _mm_cvtsd_f64, pat_or, pat_and_self,
      truthy32, truthy64, pat_lo, pat_hi, pat32_eq_zero, pat32_ne_zero, zero_eq_b2i, b2i_eq_one, Nat.reduceMod,
      Nat.reduceShiftRight, Nat.reduceEqDiff, if_true, if_false, reduceIte, List.cons_append, List.nil_append, ofBools_ne_zero,
      List.any, List.any_cons, List.any_nil, id, Bool.not_and, Bool.not_not, Bool.or_self, Bool.or_false, Bool.not_or,
      Bool.or_assoc, hr]
  try ac_rfl

theorem opIndex_law (E : FEnv) : IndexLaw 32 V.lanes (fun v i => opIndex E v i) :=
  fun _ => ofAll32 ⟨rfl, rfl, rfl, rfl, rfl, rfl, rfl, rfl, rfl, rfl, rfl, rfl, rfl, rfl, rfl, rfl, rfl, rfl, rfl, rfl, rfl,
      rfl, rfl, rfl, rfl, rfl, rfl, rfl, rfl, rfl, rfl, rfl⟩

end LFA.SV.ScalarFloat32
