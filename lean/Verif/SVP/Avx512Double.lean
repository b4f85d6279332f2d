/-
  Generated by tools/sv_proofs.py: the classes of SV/Avx512Double.lean obey the laws of SV/Spec.lean.
-/
import Verif.SV.Avx512Double
import Verif.SV.LaneOps
import Verif.SV.Unroll
set_option autoImplicit false
set_option linter.unusedSimpArgs false
set_option linter.unusedVariables false
set_option maxRecDepth 100000
open LFA.SV

namespace LFA.SV.Avx512Double8

theorem len_law : LenLaw 8 V.lanes :=
  fun _ => rfl

theorem bcast_law (E : FEnv) : BcastLaw 8 V.lanes (bcast E) :=
  fun _ => rfl

theorem opAdd_law (E : FEnv) : BinLaw V.lanes (fun a b => some (opAdd E a b)) ((LaneOps.ieee FEnv.f64).add E) :=
  binSome (fun _ _ => rfl)

theorem opSub_law (E : FEnv) : BinLaw V.lanes (fun a b => some (opSub E a b)) ((LaneOps.ieee FEnv.f64).sub E) :=
  binSome (fun _ _ => rfl)

theorem opMul_law (E : FEnv) : BinLaw V.lanes (fun a b => some (opMul E a b)) ((LaneOps.ieee FEnv.f64).mul E) :=
  binSome (fun _ _ => rfl)

theorem opDiv_law (E : FEnv) : BinLaw V.lanes (fun a b => some (opDiv E a b)) ((LaneOps.ieee FEnv.f64).div E) :=
  binSome (fun _ _ => rfl)

theorem opAddAssign_law (E : FEnv) : BinLaw V.lanes (fun a b => some (opAddAssign E a b)) ((LaneOps.ieee FEnv.f64).add E) :=
  binSome (fun _ _ => rfl)

theorem opSubAssign_law (E : FEnv) : BinLaw V.lanes (fun a b => some (opSubAssign E a b)) ((LaneOps.ieee FEnv.f64).sub E) :=
  binSome (fun _ _ => rfl)

theorem opMulAssign_law (E : FEnv) : BinLaw V.lanes (fun a b => some (opMulAssign E a b)) ((LaneOps.ieee FEnv.f64).mulA E) :=
  binSome (fun _ _ => rfl)

theorem opDivAssign_law (E : FEnv) : BinLaw V.lanes (fun a b => some (opDivAssign E a b)) ((LaneOps.ieee FEnv.f64).divA E) :=
  binSome (fun _ _ => rfl)

theorem sqrtFn_law (E : FEnv) : UnLaw V.lanes (fun a => some (sqrtFn E a)) ((LaneOps.ieee FEnv.f64).sqrt E) :=
  unSome (fun _ => rfl)

theorem sqrt_law (E : FEnv) : UnLaw V.lanes (fun a => some (sqrt E a)) ((LaneOps.ieee FEnv.f64).sqrt E) :=
  unSome (fun _ => rfl)

theorem load_law (E : FEnv) (v : V) : LoadLaw 8 V.lanes (fun m p => load E m v p) 1 :=
  by
  intro m p g ha h
  have h := at8 h
  exact ⟨_, by simp only [load, load, _mm_loadu_ps, _mm_load_ps, _mm_loadu_pd, _mm_load_pd, _mm_loadu_si128, _mm_load_si128,
      _mm_load_ss, _mm_loadl_pd, _mm_loadh_pd, _mm256_loadu_ps, _mm256_load_ps, _mm256_loadu_pd, _mm256_load_pd,
      _mm256_loadu_si256, _mm256_load_si256, _mm512_loadu_ps, _mm512_load_ps, _mm512_loadu_pd, _mm512_load_pd,
      _mm512_loadu_si512, _mm512_load_epi32, vld1q_f32, vec_lda, ld16, ld8, ld2x, ld4, ld2, bind, Option.bind, Int.add_assoc,
      Int.reduceAdd, Int.add_zero, h] <;> rfl, rfl⟩

theorem load_aligned_law (E : FEnv) (v : V) : LoadLaw 8 V.lanes (fun m p => load_aligned E m v p) 64 :=
  by
  intro m p g ha h
  have ha : aligned 8 p 64 = true := ha
  have a16_0 := assertAligned_ok (aligned_of_dvd (al' := 16) ha (by decide))
  have a16_2 := assertAligned_ok (aligned_add 2 (aligned_of_dvd (al' := 16) ha (by decide)) (by decide))
  have a16_4 := assertAligned_ok (aligned_add 4 (aligned_of_dvd (al' := 16) ha (by decide)) (by decide))
  have a16_6 := assertAligned_ok (aligned_add 6 (aligned_of_dvd (al' := 16) ha (by decide)) (by decide))
  have a32_0 := assertAligned_ok (aligned_of_dvd (al' := 32) ha (by decide))
  have a32_4 := assertAligned_ok (aligned_add 4 (aligned_of_dvd (al' := 32) ha (by decide)) (by decide))
  have a64_0 := assertAligned_ok (aligned_of_dvd (al' := 64) ha (by decide))
  have h := at8 h
  exact ⟨_, by simp only [load_aligned, load, _mm_loadu_ps, _mm_load_ps, _mm_loadu_pd, _mm_load_pd, _mm_loadu_si128,
      _mm_load_si128, _mm_load_ss, _mm_loadl_pd, _mm_loadh_pd, _mm256_loadu_ps, _mm256_load_ps, _mm256_loadu_pd, _mm256_load_pd,
      _mm256_loadu_si256, _mm256_load_si256, _mm512_loadu_ps, _mm512_load_ps, _mm512_loadu_pd, _mm512_load_pd,
      _mm512_loadu_si512, _mm512_load_epi32, vld1q_f32, vec_lda, ld16, ld8, ld2x, ld4, ld2, bind, Option.bind, Int.add_assoc,
      Int.reduceAdd, Int.add_zero, h, a16_0, a16_2, a16_4, a16_6, a32_0, a32_4, a64_0] <;> rfl, rfl⟩

theorem ofPtr_law (E : FEnv) : LoadLaw 8 V.lanes (fun m p => ofPtr E m p) 1 :=
  by
  intro m p g ha h
  obtain ⟨v, h1, h2⟩ := load_law E _ m p g ha h
  exact ⟨v, bindS h1 rfl, h2⟩

theorem ofList_law (E : FEnv) : LoadLaw 8 V.lanes (fun m p => ofList E m p) 1 :=
  by
  intro m p g ha h
  obtain ⟨v, h1, h2⟩ := load_law E _ m p g ha h
  exact ⟨v, bindS h1 rfl, h2⟩

theorem store_law (E : FEnv) : StoreLaw 8 V.lanes (fun v p => store E v p) 1 :=
  storeOf (fun _ => rfl) fun v p ha => by
  change _ = some (st p [v.val.x0.x0.x0, v.val.x0.x0.x1, v.val.x0.x1.x0, v.val.x0.x1.x1, v.val.x1.x0.x0, v.val.x1.x0.x1,
      v.val.x1.x1.x0, v.val.x1.x1.x1])
  simp only [store, store, _mm_storeu_ps, _mm_store_ps, _mm_stream_ps, _mm_store_ss, _mm_storeu_pd, _mm_store_pd, _mm_stream_pd,
      _mm_storel_pd, _mm_storeh_pd, _mm_storeu_si128, _mm_store_si128, _mm_stream_si128, _mm256_storeu_ps, _mm256_store_ps,
      _mm256_stream_ps, _mm256_storeu_pd, _mm256_store_pd, _mm256_stream_pd, _mm256_storeu_si256, _mm256_store_si256,
      _mm256_stream_si256, _mm512_storeu_ps, _mm512_store_ps, _mm512_stream_ps, _mm512_storenr_ps, _mm512_storeu_pd,
      _mm512_store_pd, _mm512_stream_pd, _mm512_storenr_pd, _mm512_storeu_si512, _mm512_store_epi32, _mm512_stream_si512,
      vst1q_f32, vec_sta, st, lanes4, lanes2, lanes24, lanes22, lanes224, lanes222, List.cons_append, List.nil_append,
      List.append_nil, bind, Option.bind, Int.add_assoc, Int.reduceAdd, Int.add_zero]

theorem store_aligned_law (E : FEnv) : StoreLaw 8 V.lanes (fun v p => store_aligned E v p) 64 :=
  storeOf (fun _ => rfl) fun v p ha => by
  have ha : aligned 8 p 64 = true := ha
  have a16_0 := assertAligned_ok (aligned_of_dvd (al' := 16) ha (by decide))
  have a16_2 := assertAligned_ok (aligned_add 2 (aligned_of_dvd (al' := 16) ha (by decide)) (by decide))
  have a16_4 := assertAligned_ok (aligned_add 4 (aligned_of_dvd (al' := 16) ha (by decide)) (by decide))
  have a16_6 := assertAligned_ok (aligned_add 6 (aligned_of_dvd (al' := 16) ha (by decide)) (by decide))
  have a32_0 := assertAligned_ok (aligned_of_dvd (al' := 32) ha (by decide))
  have a32_4 := assertAligned_ok (aligned_add 4 (aligned_of_dvd (al' := 32) ha (by decide)) (by decide))
  have a64_0 := assertAligned_ok (aligned_of_dvd (al' := 64) ha (by decide))
  change _ = some (st p [v.val.x0.x0.x0, v.val.x0.x0.x1, v.val.x0.x1.x0, v.val.x0.x1.x1, v.val.x1.x0.x0, v.val.x1.x0.x1,
      v.val.x1.x1.x0, v.val.x1.x1.x1])
  simp only [store_aligned, store, _mm_storeu_ps, _mm_store_ps, _mm_stream_ps, _mm_store_ss, _mm_storeu_pd, _mm_store_pd,
      _mm_stream_pd, _mm_storel_pd, _mm_storeh_pd, _mm_storeu_si128, _mm_store_si128, _mm_stream_si128, _mm256_storeu_ps,
      _mm256_store_ps, _mm256_stream_ps, _mm256_storeu_pd, _mm256_store_pd, _mm256_stream_pd, _mm256_storeu_si256,
      _mm256_store_si256, _mm256_stream_si256, _mm512_storeu_ps, _mm512_store_ps, _mm512_stream_ps, _mm512_storenr_ps,
      _mm512_storeu_pd, _mm512_store_pd, _mm512_stream_pd, _mm512_storenr_pd, _mm512_storeu_si512, _mm512_store_epi32,
      _mm512_stream_si512, vst1q_f32, vec_sta, st, lanes4, lanes2, lanes24, lanes22, lanes224, lanes222, List.cons_append,
      List.nil_append, List.append_nil, bind, Option.bind, Int.add_assoc, Int.reduceAdd, Int.add_zero, a16_0, a16_2, a16_4,
      a16_6, a32_0, a32_4, a64_0]

theorem store_nt_law (E : FEnv) : StoreLaw 8 V.lanes (fun v p => store_nt E v p) 64 :=
  storeOf (fun _ => rfl) fun v p ha => by
  have ha : aligned 8 p 64 = true := ha
  have a16_0 := assertAligned_ok (aligned_of_dvd (al' := 16) ha (by decide))
  have a16_2 := assertAligned_ok (aligned_add 2 (aligned_of_dvd (al' := 16) ha (by decide)) (by decide))
  have a16_4 := assertAligned_ok (aligned_add 4 (aligned_of_dvd (al' := 16) ha (by decide)) (by decide))
  have a16_6 := assertAligned_ok (aligned_add 6 (aligned_of_dvd (al' := 16) ha (by decide)) (by decide))
  have a32_0 := assertAligned_ok (aligned_of_dvd (al' := 32) ha (by decide))
  have a32_4 := assertAligned_ok (aligned_add 4 (aligned_of_dvd (al' := 32) ha (by decide)) (by decide))
  have a64_0 := assertAligned_ok (aligned_of_dvd (al' := 64) ha (by decide))
  change _ = some (st p [v.val.x0.x0.x0, v.val.x0.x0.x1, v.val.x0.x1.x0, v.val.x0.x1.x1, v.val.x1.x0.x0, v.val.x1.x0.x1,
      v.val.x1.x1.x0, v.val.x1.x1.x1])
  simp only [store_nt, store, _mm_storeu_ps, _mm_store_ps, _mm_stream_ps, _mm_store_ss, _mm_storeu_pd, _mm_store_pd,
      _mm_stream_pd, _mm_storel_pd, _mm_storeh_pd, _mm_storeu_si128, _mm_store_si128, _mm_stream_si128, _mm256_storeu_ps,
      _mm256_store_ps, _mm256_stream_ps, _mm256_storeu_pd, _mm256_store_pd, _mm256_stream_pd, _mm256_storeu_si256,
      _mm256_store_si256, _mm256_stream_si256, _mm512_storeu_ps, _mm512_store_ps, _mm512_stream_ps, _mm512_storenr_ps,
      _mm512_storeu_pd, _mm512_store_pd, _mm512_stream_pd, _mm512_storenr_pd, _mm512_storeu_si512, _mm512_store_epi32,
      _mm512_stream_si512, vst1q_f32, vec_sta, st, lanes4, lanes2, lanes24, lanes22, lanes224, lanes222, List.cons_append,
      List.nil_append, List.append_nil, bind, Option.bind, Int.add_assoc, Int.reduceAdd, Int.add_zero, a16_0, a16_2, a16_4,
      a16_6, a32_0, a32_4, a64_0]

theorem opStore_law (E : FEnv) : StoreLaw 8 V.lanes (fun v p => opStore E p v) 1 :=
  by
  intro m v p ha h
  obtain ⟨ws, m', h1, h2⟩ := store_law E m v p ha h
  exact ⟨ws, m', bindS h1 rfl, h2⟩

theorem gather_law (E : FEnv) (v : V) : GatherLaw 8 V.lanes (fun m mo p o => gather E m mo v p o) 1 true :=
  by
  intro m mo p o off g ha hn ho hg
  have ho := at8 ho
  have hg := all8 hg
  exact ⟨_, by simp only [gather, _mm_loadu_ps, _mm_load_ps, _mm_loadu_pd, _mm_load_pd, _mm_loadu_si128, _mm_load_si128,
      _mm_load_ss, _mm_loadl_pd, _mm_loadh_pd, _mm256_loadu_ps, _mm256_load_ps, _mm256_loadu_pd, _mm256_load_pd,
      _mm256_loadu_si256, _mm256_load_si256, _mm512_loadu_ps, _mm512_load_ps, _mm512_loadu_pd, _mm512_load_pd,
      _mm512_loadu_si512, _mm512_load_epi32, vld1q_f32, vec_lda, ld16, ld8, ld2x, ld4, ld2, gath4, gath2x, _mm256_i32gather_ps,
      _mm256_i32gather_epi32, _mm256_i32gather_pd, _mm512_i32gather_ps, _mm512_i32gather_epi32, _mm512_i32gather_pd,
      _mm512_i32logather_pd, _mm512_permute4f128_epi32, SHORTVEC_INSERT_PS_AVX, SHORTVEC_INSERT_PS, gaddr44, gaddr88, bind,
      Option.bind, Int.add_assoc, Int.reduceAdd, Int.add_zero, ho, hg] <;> rfl, rfl⟩

theorem scatter_law (E : FEnv) : ScatterLaw 8 V.lanes (fun mo v p o => scatter E mo v p o) 1 :=
  by
  intro mo v p o off ha ho
  have ho := at8 ho
  simp only [scatter, _mm_loadu_ps, _mm_load_ps, _mm_loadu_pd, _mm_load_pd, _mm_loadu_si128, _mm_load_si128, _mm_load_ss,
      _mm_loadl_pd, _mm_loadh_pd, _mm256_loadu_ps, _mm256_load_ps, _mm256_loadu_pd, _mm256_load_pd, _mm256_loadu_si256,
      _mm256_load_si256, _mm512_loadu_ps, _mm512_load_ps, _mm512_loadu_pd, _mm512_load_pd, _mm512_loadu_si512,
      _mm512_load_epi32, vld1q_f32, vec_lda, ld16, ld8, ld2x, ld4, ld2, _mm_storeu_ps, _mm_store_ps, _mm_stream_ps,
      _mm_store_ss, _mm_storeu_pd, _mm_store_pd, _mm_stream_pd, _mm_storel_pd, _mm_storeh_pd, _mm_storeu_si128, _mm_store_si128,
      _mm_stream_si128, _mm256_storeu_ps, _mm256_store_ps, _mm256_stream_ps, _mm256_storeu_pd, _mm256_store_pd,
      _mm256_stream_pd, _mm256_storeu_si256, _mm256_store_si256, _mm256_stream_si256, _mm512_storeu_ps, _mm512_store_ps,
      _mm512_stream_ps, _mm512_storenr_ps, _mm512_storeu_pd, _mm512_store_pd, _mm512_stream_pd, _mm512_storenr_pd,
      _mm512_storeu_si512, _mm512_store_epi32, _mm512_stream_si512, vst1q_f32, vec_sta, st, lanes4, lanes2, lanes24, lanes22,
      lanes224, lanes222, List.cons_append, List.nil_append, List.append_nil, scat, _mm512_i32scatter_ps,
      _mm512_i32scatter_epi32, _mm512_i32scatter_pd, _mm512_i32loscatter_pd, _mm512_permute4f128_epi32, bind, Option.bind,
      Int.add_assoc, Int.reduceAdd, Int.add_zero, ho, List.zipWith, gaddr44, gaddr88]
  rfl

theorem print_law (E : FEnv) : PrintLaw V.lanes (print E) :=
  fun _ => rfl

theorem opLt_law (E : FEnv) : CmpLaw V.lanes (MaskKind.bits 8 : MaskKind V (BitVec 8)) (fun a b => some (opLt E a b)) E.f64.lt
    :=
  by
  intro a b
  refine ⟨(ofBools 32 [E.f64.lt a.val.x0.x0.x0 b.val.x0.x0.x0, E.f64.lt a.val.x0.x0.x1 b.val.x0.x0.x1, E.f64.lt a.val.x0.x1.x0
      b.val.x0.x1.x0, E.f64.lt a.val.x0.x1.x1 b.val.x0.x1.x1, E.f64.lt a.val.x1.x0.x0 b.val.x1.x0.x0, E.f64.lt a.val.x1.x0.x1
      b.val.x1.x0.x1, E.f64.lt a.val.x1.x1.x0 b.val.x1.x1.x0, E.f64.lt a.val.x1.x1.x1 b.val.x1.x1.x1]).setWidth 8, ?_,
      Nat.le_of_ble_eq_true rfl, fun i => repOf _ (Nat.le_of_ble_eq_true rfl) (by decide) i⟩
  have p0 : promote (_mm512_cmp_pd_mask E a.val b.val _CMP_LT_OS) <<< 0 = ofBools 32 [E.f64.lt a.val.x0.x0.x0 b.val.x0.x0.x0,
      E.f64.lt a.val.x0.x0.x1 b.val.x0.x0.x1, E.f64.lt a.val.x0.x1.x0 b.val.x0.x1.x0, E.f64.lt a.val.x0.x1.x1 b.val.x0.x1.x1,
      E.f64.lt a.val.x1.x0.x0 b.val.x1.x0.x0, E.f64.lt a.val.x1.x0.x1 b.val.x1.x0.x1, E.f64.lt a.val.x1.x1.x0 b.val.x1.x1.x0,
      E.f64.lt a.val.x1.x1.x1 b.val.x1.x1.x1] := by
    rw [BitVec.shiftLeft_zero]; exact promote_ofBools _ (Nat.le_of_ble_eq_true rfl) (by decide)
  dsimp only [opLt]
  rw [p0]

theorem opLe_law (E : FEnv) : CmpLaw V.lanes (MaskKind.bits 8 : MaskKind V (BitVec 8)) (fun a b => some (opLe E a b)) E.f64.le
    :=
  by
  intro a b
  refine ⟨(ofBools 32 [E.f64.le a.val.x0.x0.x0 b.val.x0.x0.x0, E.f64.le a.val.x0.x0.x1 b.val.x0.x0.x1, E.f64.le a.val.x0.x1.x0
      b.val.x0.x1.x0, E.f64.le a.val.x0.x1.x1 b.val.x0.x1.x1, E.f64.le a.val.x1.x0.x0 b.val.x1.x0.x0, E.f64.le a.val.x1.x0.x1
      b.val.x1.x0.x1, E.f64.le a.val.x1.x1.x0 b.val.x1.x1.x0, E.f64.le a.val.x1.x1.x1 b.val.x1.x1.x1]).setWidth 8, ?_,
      Nat.le_of_ble_eq_true rfl, fun i => repOf _ (Nat.le_of_ble_eq_true rfl) (by decide) i⟩
  have p0 : promote (_mm512_cmp_pd_mask E a.val b.val _CMP_LE_OS) <<< 0 = ofBools 32 [E.f64.le a.val.x0.x0.x0 b.val.x0.x0.x0,
      E.f64.le a.val.x0.x0.x1 b.val.x0.x0.x1, E.f64.le a.val.x0.x1.x0 b.val.x0.x1.x0, E.f64.le a.val.x0.x1.x1 b.val.x0.x1.x1,
      E.f64.le a.val.x1.x0.x0 b.val.x1.x0.x0, E.f64.le a.val.x1.x0.x1 b.val.x1.x0.x1, E.f64.le a.val.x1.x1.x0 b.val.x1.x1.x0,
      E.f64.le a.val.x1.x1.x1 b.val.x1.x1.x1] := by
    rw [BitVec.shiftLeft_zero]; exact promote_ofBools _ (Nat.le_of_ble_eq_true rfl) (by decide)
  dsimp only [opLe]
  rw [p0]

theorem opEq_law (E : FEnv) : CmpLaw V.lanes (MaskKind.bits 8 : MaskKind V (BitVec 8)) (fun a b => some (opEq E a b)) E.f64.eq
    :=
  by
  intro a b
  refine ⟨(ofBools 32 [E.f64.eq a.val.x0.x0.x0 b.val.x0.x0.x0, E.f64.eq a.val.x0.x0.x1 b.val.x0.x0.x1, E.f64.eq a.val.x0.x1.x0
      b.val.x0.x1.x0, E.f64.eq a.val.x0.x1.x1 b.val.x0.x1.x1, E.f64.eq a.val.x1.x0.x0 b.val.x1.x0.x0, E.f64.eq a.val.x1.x0.x1
      b.val.x1.x0.x1, E.f64.eq a.val.x1.x1.x0 b.val.x1.x1.x0, E.f64.eq a.val.x1.x1.x1 b.val.x1.x1.x1]).setWidth 8, ?_,
      Nat.le_of_ble_eq_true rfl, fun i => repOf _ (Nat.le_of_ble_eq_true rfl) (by decide) i⟩
  have p0 : promote (_mm512_cmp_pd_mask E a.val b.val _CMP_EQ_OQ) <<< 0 = ofBools 32 [E.f64.eq a.val.x0.x0.x0 b.val.x0.x0.x0,
      E.f64.eq a.val.x0.x0.x1 b.val.x0.x0.x1, E.f64.eq a.val.x0.x1.x0 b.val.x0.x1.x0, E.f64.eq a.val.x0.x1.x1 b.val.x0.x1.x1,
      E.f64.eq a.val.x1.x0.x0 b.val.x1.x0.x0, E.f64.eq a.val.x1.x0.x1 b.val.x1.x0.x1, E.f64.eq a.val.x1.x1.x0 b.val.x1.x1.x0,
      E.f64.eq a.val.x1.x1.x1 b.val.x1.x1.x1] := by
    rw [BitVec.shiftLeft_zero]; exact promote_ofBools _ (Nat.le_of_ble_eq_true rfl) (by decide)
  dsimp only [opEq]
  rw [p0]

theorem opGt_law (E : FEnv) : CmpLaw V.lanes (MaskKind.bits 8 : MaskKind V (BitVec 8)) (fun a b => some (opGt E a b)) E.f64.gt
    :=
  by
  intro a b
  refine ⟨(ofBools 32 [E.f64.gt a.val.x0.x0.x0 b.val.x0.x0.x0, E.f64.gt a.val.x0.x0.x1 b.val.x0.x0.x1, E.f64.gt a.val.x0.x1.x0
      b.val.x0.x1.x0, E.f64.gt a.val.x0.x1.x1 b.val.x0.x1.x1, E.f64.gt a.val.x1.x0.x0 b.val.x1.x0.x0, E.f64.gt a.val.x1.x0.x1
      b.val.x1.x0.x1, E.f64.gt a.val.x1.x1.x0 b.val.x1.x1.x0, E.f64.gt a.val.x1.x1.x1 b.val.x1.x1.x1]).setWidth 8, ?_,
      Nat.le_of_ble_eq_true rfl, fun i => repOf _ (Nat.le_of_ble_eq_true rfl) (by decide) i⟩
  have p0 : promote (_mm512_cmp_pd_mask E a.val b.val _CMP_GT_OS) <<< 0 = ofBools 32 [E.f64.gt a.val.x0.x0.x0 b.val.x0.x0.x0,
      E.f64.gt a.val.x0.x0.x1 b.val.x0.x0.x1, E.f64.gt a.val.x0.x1.x0 b.val.x0.x1.x0, E.f64.gt a.val.x0.x1.x1 b.val.x0.x1.x1,
      E.f64.gt a.val.x1.x0.x0 b.val.x1.x0.x0, E.f64.gt a.val.x1.x0.x1 b.val.x1.x0.x1, E.f64.gt a.val.x1.x1.x0 b.val.x1.x1.x0,
      E.f64.gt a.val.x1.x1.x1 b.val.x1.x1.x1] := by
    rw [BitVec.shiftLeft_zero]; exact promote_ofBools _ (Nat.le_of_ble_eq_true rfl) (by decide)
  dsimp only [opGt]
  rw [p0]

theorem opGe_law (E : FEnv) : CmpLaw V.lanes (MaskKind.bits 8 : MaskKind V (BitVec 8)) (fun a b => some (opGe E a b)) E.f64.ge
    :=
  by
  intro a b
  refine ⟨(ofBools 32 [E.f64.ge a.val.x0.x0.x0 b.val.x0.x0.x0, E.f64.ge a.val.x0.x0.x1 b.val.x0.x0.x1, E.f64.ge a.val.x0.x1.x0
      b.val.x0.x1.x0, E.f64.ge a.val.x0.x1.x1 b.val.x0.x1.x1, E.f64.ge a.val.x1.x0.x0 b.val.x1.x0.x0, E.f64.ge a.val.x1.x0.x1
      b.val.x1.x0.x1, E.f64.ge a.val.x1.x1.x0 b.val.x1.x1.x0, E.f64.ge a.val.x1.x1.x1 b.val.x1.x1.x1]).setWidth 8, ?_,
      Nat.le_of_ble_eq_true rfl, fun i => repOf _ (Nat.le_of_ble_eq_true rfl) (by decide) i⟩
  have p0 : promote (_mm512_cmp_pd_mask E a.val b.val _CMP_GE_OS) <<< 0 = ofBools 32 [E.f64.ge a.val.x0.x0.x0 b.val.x0.x0.x0,
      E.f64.ge a.val.x0.x0.x1 b.val.x0.x0.x1, E.f64.ge a.val.x0.x1.x0 b.val.x0.x1.x0, E.f64.ge a.val.x0.x1.x1 b.val.x0.x1.x1,
      E.f64.ge a.val.x1.x0.x0 b.val.x1.x0.x0, E.f64.ge a.val.x1.x0.x1 b.val.x1.x0.x1, E.f64.ge a.val.x1.x1.x0 b.val.x1.x1.x0,
      E.f64.ge a.val.x1.x1.x1 b.val.x1.x1.x1] := by
    rw [BitVec.shiftLeft_zero]; exact promote_ofBools _ (Nat.le_of_ble_eq_true rfl) (by decide)
  dsimp only [opGe]
  rw [p0]

theorem blend_law (E : FEnv) : BlendLaw 8 V.lanes (MaskKind.bits 8 : MaskKind V (BitVec 8)) (blend E) :=
  by
  intro a m b bs hl hr
  obtain ⟨b0, b1, b2, b3, b4, b5, b6, b7, rfl⟩ := len8 hl
  have hr := rep8 hr.2
  dsimp only [blend, _mm512_mask_blend_ps, _mm512_mask_blend_pd, blendAt4, blendAt2, pick]
  simp only [psh8, psh16, sel8, sel16, selLo, promote_get, Nat.reduceAdd, Nat.reduceLT, Nat.zero_add, Nat.add_zero, decide_true,
      Bool.true_and, hr] <;> rfl

theorem any_law (E : FEnv) : AnyLaw 8 V.lanes (MaskKind.vec : MaskKind V V) (any E) :=
  by
  intro m bs hl hr
  obtain ⟨b0, b1, b2, b3, b4, b5, b6, b7, rfl⟩ := len8 hl
  change [m.val.x0.x0.x0, m.val.x0.x0.x1, m.val.x0.x1.x0, m.val.x0.x1.x1, m.val.x1.x0.x0, m.val.x1.x0.x1, m.val.x1.x1.x0,
      m.val.x1.x1.x1] = [pat 64 b0, pat 64 b1, pat 64 b2, pat 64 b3, pat 64 b4, pat 64 b5, pat 64 b6, pat 64 b7] at hr
  simp only [List.cons.injEq, and_true] at hr
  dsimp only [any]
  simp only [_mm_castps_si128, _mm_castpd_si128, _mm256_castps_si256, _mm256_castpd_si256, _mm512_castps_si512,
      _mm512_castpd_si512, _mm_or_ps, _mm_or_pd, _mm256_or_ps, _mm256_or_pd, _mm512_or_ps, _mm512_or_pd, R4.map2, R2.map2,
      R4.map, R2.map, _mm_shuffle_ps, _mm_shuffle_pd, _mm_testz_si128, _mm256_testz_si256, _mm512_test_epi64_mask,
      _mm256_extractf128_ps, _mm256_extractf128_pd, R4.sel, R2.sel, _mm_cvtss_f32, _mm_cvtsd_f64, pat_or, pat_and_self,
      truthy32, truthy64, pat_lo, pat_hi, pat32_eq_zero, pat32_ne_zero, zero_eq_b2i, b2i_eq_one, Nat.reduceMod,
      Nat.reduceShiftRight, Nat.reduceEqDiff, if_true, if_false, reduceIte, List.cons_append, List.nil_append, ofBools_ne_zero,
      List.any, List.any_cons, List.any_nil, id, Bool.not_and, Bool.not_not, Bool.or_self, Bool.or_false, Bool.not_or,
      Bool.or_assoc, hr]
  rw [ofBools_ne_zero _ (Nat.le_of_ble_eq_true rfl)]
  simp only [List.any_cons, List.any_nil, id, Bool.or_false, Bool.or_assoc]
  try ac_rfl

theorem opIndex_law (E : FEnv) : IndexLaw 8 V.lanes (fun v i => some (opIndex E v i)) :=
  fun _ => ofAll8 ⟨rfl, rfl, rfl, rfl, rfl, rfl, rfl, rfl⟩

end LFA.SV.Avx512Double8

namespace LFA.SV.Avx512Double16

theorem len_law : LenLaw 16 V.lanes :=
  fun _ => rfl

theorem bcast_law (E : FEnv) : BcastLaw 16 V.lanes (bcast E) :=
  fun _ => rfl

theorem opAdd_law (E : FEnv) : BinLaw V.lanes (fun a b => some (opAdd E a b)) ((LaneOps.ieee FEnv.f64).add E) :=
  binSome (fun _ _ => rfl)

theorem opSub_law (E : FEnv) : BinLaw V.lanes (fun a b => some (opSub E a b)) ((LaneOps.ieee FEnv.f64).sub E) :=
  binSome (fun _ _ => rfl)

theorem opMul_law (E : FEnv) : BinLaw V.lanes (fun a b => some (opMul E a b)) ((LaneOps.ieee FEnv.f64).mul E) :=
  binSome (fun _ _ => rfl)

theorem opDiv_law (E : FEnv) : BinLaw V.lanes (fun a b => some (opDiv E a b)) ((LaneOps.ieee FEnv.f64).div E) :=
  binSome (fun _ _ => rfl)

theorem opAddAssign_law (E : FEnv) : BinLaw V.lanes (fun a b => some (opAddAssign E a b)) ((LaneOps.ieee FEnv.f64).add E) :=
  binSome (fun _ _ => rfl)

theorem opSubAssign_law (E : FEnv) : BinLaw V.lanes (fun a b => some (opSubAssign E a b)) ((LaneOps.ieee FEnv.f64).sub E) :=
  binSome (fun _ _ => rfl)

theorem opMulAssign_law (E : FEnv) : BinLaw V.lanes (fun a b => some (opMulAssign E a b)) ((LaneOps.ieee FEnv.f64).mulA E) :=
  binSome (fun _ _ => rfl)

theorem opDivAssign_law (E : FEnv) : BinLaw V.lanes (fun a b => some (opDivAssign E a b)) ((LaneOps.ieee FEnv.f64).divA E) :=
  binSome (fun _ _ => rfl)

theorem sqrtFn_law (E : FEnv) : UnLaw V.lanes (fun a => some (sqrtFn E a)) ((LaneOps.ieee FEnv.f64).sqrt E) :=
  unSome (fun _ => rfl)

theorem sqrt_law (E : FEnv) : UnLaw V.lanes (fun a => some (sqrt E a)) ((LaneOps.ieee FEnv.f64).sqrt E) :=
  unSome (fun _ => rfl)

theorem load_law (E : FEnv) (v : V) : LoadLaw 16 V.lanes (fun m p => load E m v p) 1 :=
  by
  intro m p g ha h
  have h := at16 h
  exact ⟨_, by simp only [load, load, _mm_loadu_ps, _mm_load_ps, _mm_loadu_pd, _mm_load_pd, _mm_loadu_si128, _mm_load_si128,
      _mm_load_ss, _mm_loadl_pd, _mm_loadh_pd, _mm256_loadu_ps, _mm256_load_ps, _mm256_loadu_pd, _mm256_load_pd,
      _mm256_loadu_si256, _mm256_load_si256, _mm512_loadu_ps, _mm512_load_ps, _mm512_loadu_pd, _mm512_load_pd,
      _mm512_loadu_si512, _mm512_load_epi32, vld1q_f32, vec_lda, ld16, ld8, ld2x, ld4, ld2, bind, Option.bind, Int.add_assoc,
      Int.reduceAdd, Int.add_zero, h] <;> rfl, rfl⟩

theorem load_aligned_law (E : FEnv) (v : V) : LoadLaw 16 V.lanes (fun m p => load_aligned E m v p) 64 :=
  by
  intro m p g ha h
  have ha : aligned 8 p 64 = true := ha
  have a16_0 := assertAligned_ok (aligned_of_dvd (al' := 16) ha (by decide))
  have a16_2 := assertAligned_ok (aligned_add 2 (aligned_of_dvd (al' := 16) ha (by decide)) (by decide))
  have a16_4 := assertAligned_ok (aligned_add 4 (aligned_of_dvd (al' := 16) ha (by decide)) (by decide))
  have a16_6 := assertAligned_ok (aligned_add 6 (aligned_of_dvd (al' := 16) ha (by decide)) (by decide))
  have a16_8 := assertAligned_ok (aligned_add 8 (aligned_of_dvd (al' := 16) ha (by decide)) (by decide))
  have a16_10 := assertAligned_ok (aligned_add 10 (aligned_of_dvd (al' := 16) ha (by decide)) (by decide))
  have a16_12 := assertAligned_ok (aligned_add 12 (aligned_of_dvd (al' := 16) ha (by decide)) (by decide))
  have a16_14 := assertAligned_ok (aligned_add 14 (aligned_of_dvd (al' := 16) ha (by decide)) (by decide))
  have a32_0 := assertAligned_ok (aligned_of_dvd (al' := 32) ha (by decide))
  have a32_4 := assertAligned_ok (aligned_add 4 (aligned_of_dvd (al' := 32) ha (by decide)) (by decide))
  have a32_8 := assertAligned_ok (aligned_add 8 (aligned_of_dvd (al' := 32) ha (by decide)) (by decide))
  have a32_12 := assertAligned_ok (aligned_add 12 (aligned_of_dvd (al' := 32) ha (by decide)) (by decide))
  have a64_0 := assertAligned_ok (aligned_of_dvd (al' := 64) ha (by decide))
  have a64_8 := assertAligned_ok (aligned_add 8 (aligned_of_dvd (al' := 64) ha (by decide)) (by decide))
  have h := at16 h
  exact ⟨_, by simp only [load_aligned, load, _mm_loadu_ps, _mm_load_ps, _mm_loadu_pd, _mm_load_pd, _mm_loadu_si128,
      _mm_load_si128, _mm_load_ss, _mm_loadl_pd, _mm_loadh_pd, _mm256_loadu_ps, _mm256_load_ps, _mm256_loadu_pd, _mm256_load_pd,
      _mm256_loadu_si256, _mm256_load_si256, _mm512_loadu_ps, _mm512_load_ps, _mm512_loadu_pd, _mm512_load_pd,
      _mm512_loadu_si512, _mm512_load_epi32, vld1q_f32, vec_lda, ld16, ld8, ld2x, ld4, ld2, bind, Option.bind, Int.add_assoc,
      Int.reduceAdd, Int.add_zero, h, a16_0, a16_2, a16_4, a16_6, a16_8, a16_10, a16_12, a16_14, a32_0, a32_4, a32_8, a32_12,
      a64_0, a64_8] <;> rfl, rfl⟩

theorem ofPtr_law (E : FEnv) : LoadLaw 16 V.lanes (fun m p => ofPtr E m p) 1 :=
  by
  intro m p g ha h
  obtain ⟨v, h1, h2⟩ := load_law E _ m p g ha h
  exact ⟨v, bindS h1 rfl, h2⟩

theorem ofList_law (E : FEnv) : LoadLaw 16 V.lanes (fun m p => ofList E m p) 1 :=
  by
  intro m p g ha h
  obtain ⟨v, h1, h2⟩ := load_law E _ m p g ha h
  exact ⟨v, bindS h1 rfl, h2⟩

theorem store_law (E : FEnv) : StoreLaw 16 V.lanes (fun v p => store E v p) 1 :=
  storeOf (fun _ => rfl) fun v p ha => by
  change _ = some (st p [v.val0.x0.x0.x0, v.val0.x0.x0.x1, v.val0.x0.x1.x0, v.val0.x0.x1.x1, v.val0.x1.x0.x0, v.val0.x1.x0.x1,
      v.val0.x1.x1.x0, v.val0.x1.x1.x1, v.val1.x0.x0.x0, v.val1.x0.x0.x1, v.val1.x0.x1.x0, v.val1.x0.x1.x1, v.val1.x1.x0.x0,
      v.val1.x1.x0.x1, v.val1.x1.x1.x0, v.val1.x1.x1.x1])
  simp only [store, store, _mm_storeu_ps, _mm_store_ps, _mm_stream_ps, _mm_store_ss, _mm_storeu_pd, _mm_store_pd, _mm_stream_pd,
      _mm_storel_pd, _mm_storeh_pd, _mm_storeu_si128, _mm_store_si128, _mm_stream_si128, _mm256_storeu_ps, _mm256_store_ps,
      _mm256_stream_ps, _mm256_storeu_pd, _mm256_store_pd, _mm256_stream_pd, _mm256_storeu_si256, _mm256_store_si256,
      _mm256_stream_si256, _mm512_storeu_ps, _mm512_store_ps, _mm512_stream_ps, _mm512_storenr_ps, _mm512_storeu_pd,
      _mm512_store_pd, _mm512_stream_pd, _mm512_storenr_pd, _mm512_storeu_si512, _mm512_store_epi32, _mm512_stream_si512,
      vst1q_f32, vec_sta, st, lanes4, lanes2, lanes24, lanes22, lanes224, lanes222, List.cons_append, List.nil_append,
      List.append_nil, bind, Option.bind, Int.add_assoc, Int.reduceAdd, Int.add_zero]

theorem store_aligned_law (E : FEnv) : StoreLaw 16 V.lanes (fun v p => store_aligned E v p) 64 :=
  storeOf (fun _ => rfl) fun v p ha => by
  have ha : aligned 8 p 64 = true := ha
  have a16_0 := assertAligned_ok (aligned_of_dvd (al' := 16) ha (by decide))
  have a16_2 := assertAligned_ok (aligned_add 2 (aligned_of_dvd (al' := 16) ha (by decide)) (by decide))
  have a16_4 := assertAligned_ok (aligned_add 4 (aligned_of_dvd (al' := 16) ha (by decide)) (by decide))
  have a16_6 := assertAligned_ok (aligned_add 6 (aligned_of_dvd (al' := 16) ha (by decide)) (by decide))
  have a16_8 := assertAligned_ok (aligned_add 8 (aligned_of_dvd (al' := 16) ha (by decide)) (by decide))
  have a16_10 := assertAligned_ok (aligned_add 10 (aligned_of_dvd (al' := 16) ha (by decide)) (by decide))
  have a16_12 := assertAligned_ok (aligned_add 12 (aligned_of_dvd (al' := 16) ha (by decide)) (by decide))
  have a16_14 := assertAligned_ok (aligned_add 14 (aligned_of_dvd (al' := 16) ha (by decide)) (by decide))
  have a32_0 := assertAligned_ok (aligned_of_dvd (al' := 32) ha (by decide))
  have a32_4 := assertAligned_ok (aligned_add 4 (aligned_of_dvd (al' := 32) ha (by decide)) (by decide))
  have a32_8 := assertAligned_ok (aligned_add 8 (aligned_of_dvd (al' := 32) ha (by decide)) (by decide))
  have a32_12 := assertAligned_ok (aligned_add 12 (aligned_of_dvd (al' := 32) ha (by decide)) (by decide))
  have a64_0 := assertAligned_ok (aligned_of_dvd (al' := 64) ha (by decide))
  have a64_8 := assertAligned_ok (aligned_add 8 (aligned_of_dvd (al' := 64) ha (by decide)) (by decide))
  change _ = some (st p [v.val0.x0.x0.x0, v.val0.x0.x0.x1, v.val0.x0.x1.x0, v.val0.x0.x1.x1, v.val0.x1.x0.x0, v.val0.x1.x0.x1,
      v.val0.x1.x1.x0, v.val0.x1.x1.x1, v.val1.x0.x0.x0, v.val1.x0.x0.x1, v.val1.x0.x1.x0, v.val1.x0.x1.x1, v.val1.x1.x0.x0,
      v.val1.x1.x0.x1, v.val1.x1.x1.x0, v.val1.x1.x1.x1])
  simp only [store_aligned, store, _mm_storeu_ps, _mm_store_ps, _mm_stream_ps, _mm_store_ss, _mm_storeu_pd, _mm_store_pd,
      _mm_stream_pd, _mm_storel_pd, _mm_storeh_pd, _mm_storeu_si128, _mm_store_si128, _mm_stream_si128, _mm256_storeu_ps,
      _mm256_store_ps, _mm256_stream_ps, _mm256_storeu_pd, _mm256_store_pd, _mm256_stream_pd, _mm256_storeu_si256,
      _mm256_store_si256, _mm256_stream_si256, _mm512_storeu_ps, _mm512_store_ps, _mm512_stream_ps, _mm512_storenr_ps,
      _mm512_storeu_pd, _mm512_store_pd, _mm512_stream_pd, _mm512_storenr_pd, _mm512_storeu_si512, _mm512_store_epi32,
      _mm512_stream_si512, vst1q_f32, vec_sta, st, lanes4, lanes2, lanes24, lanes22, lanes224, lanes222, List.cons_append,
      List.nil_append, List.append_nil, bind, Option.bind, Int.add_assoc, Int.reduceAdd, Int.add_zero, a16_0, a16_2, a16_4,
      a16_6, a16_8, a16_10, a16_12, a16_14, a32_0, a32_4, a32_8, a32_12, a64_0, a64_8]

theorem store_nt_law (E : FEnv) : StoreLaw 16 V.lanes (fun v p => store_nt E v p) 64 :=
  storeOf (fun _ => rfl) fun v p ha => by
  have ha : aligned 8 p 64 = true := ha
  have a16_0 := assertAligned_ok (aligned_of_dvd (al' := 16) ha (by decide))
  have a16_2 := assertAligned_ok (aligned_add 2 (aligned_of_dvd (al' := 16) ha (by decide)) (by decide))
  have a16_4 := assertAligned_ok (aligned_add 4 (aligned_of_dvd (al' := 16) ha (by decide)) (by decide))
  have a16_6 := assertAligned_ok (aligned_add 6 (aligned_of_dvd (al' := 16) ha (by decide)) (by decide))
  have a16_8 := assertAligned_ok (aligned_add 8 (aligned_of_dvd (al' := 16) ha (by decide)) (by decide))
  have a16_10 := assertAligned_ok (aligned_add 10 (aligned_of_dvd (al' := 16) ha (by decide)) (by decide))
  have a16_12 := assertAligned_ok (aligned_add 12 (aligned_of_dvd (al' := 16) ha (by decide)) (by decide))
  have a16_14 := assertAligned_ok (aligned_add 14 (aligned_of_dvd (al' := 16) ha (by decide)) (by decide))
  have a32_0 := assertAligned_ok (aligned_of_dvd (al' := 32) ha (by decide))
  have a32_4 := assertAligned_ok (aligned_add 4 (aligned_of_dvd (al' := 32) ha (by decide)) (by decide))
  have a32_8 := assertAligned_ok (aligned_add 8 (aligned_of_dvd (al' := 32) ha (by decide)) (by decide))
  have a32_12 := assertAligned_ok (aligned_add 12 (aligned_of_dvd (al' := 32) ha (by decide)) (by decide))
  have a64_0 := assertAligned_ok (aligned_of_dvd (al' := 64) ha (by decide))
  have a64_8 := assertAligned_ok (aligned_add 8 (aligned_of_dvd (al' := 64) ha (by decide)) (by decide))
  change _ = some (st p [v.val0.x0.x0.x0, v.val0.x0.x0.x1, v.val0.x0.x1.x0, v.val0.x0.x1.x1, v.val0.x1.x0.x0, v.val0.x1.x0.x1,
      v.val0.x1.x1.x0, v.val0.x1.x1.x1, v.val1.x0.x0.x0, v.val1.x0.x0.x1, v.val1.x0.x1.x0, v.val1.x0.x1.x1, v.val1.x1.x0.x0,
      v.val1.x1.x0.x1, v.val1.x1.x1.x0, v.val1.x1.x1.x1])
  simp only [store_nt, store, _mm_storeu_ps, _mm_store_ps, _mm_stream_ps, _mm_store_ss, _mm_storeu_pd, _mm_store_pd,
      _mm_stream_pd, _mm_storel_pd, _mm_storeh_pd, _mm_storeu_si128, _mm_store_si128, _mm_stream_si128, _mm256_storeu_ps,
      _mm256_store_ps, _mm256_stream_ps, _mm256_storeu_pd, _mm256_store_pd, _mm256_stream_pd, _mm256_storeu_si256,
      _mm256_store_si256, _mm256_stream_si256, _mm512_storeu_ps, _mm512_store_ps, _mm512_stream_ps, _mm512_storenr_ps,
      _mm512_storeu_pd, _mm512_store_pd, _mm512_stream_pd, _mm512_storenr_pd, _mm512_storeu_si512, _mm512_store_epi32,
      _mm512_stream_si512, vst1q_f32, vec_sta, st, lanes4, lanes2, lanes24, lanes22, lanes224, lanes222, List.cons_append,
      List.nil_append, List.append_nil, bind, Option.bind, Int.add_assoc, Int.reduceAdd, Int.add_zero, a16_0, a16_2, a16_4,
      a16_6, a16_8, a16_10, a16_12, a16_14, a32_0, a32_4, a32_8, a32_12, a64_0, a64_8]

theorem opStore_law (E : FEnv) : StoreLaw 16 V.lanes (fun v p => opStore E p v) 1 :=
  by
  intro m v p ha h
  obtain ⟨ws, m', h1, h2⟩ := store_law E m v p ha h
  exact ⟨ws, m', bindS h1 rfl, h2⟩

theorem gather_law (E : FEnv) (v : V) : GatherLaw 16 V.lanes (fun m mo p o => gather E m mo v p o) 1 true :=
  by
  intro m mo p o off g ha hn ho hg
  have ho := at16 ho
  have hg := all16 hg
  exact ⟨_, by simp only [gather, _mm_loadu_ps, _mm_load_ps, _mm_loadu_pd, _mm_load_pd, _mm_loadu_si128, _mm_load_si128,
      _mm_load_ss, _mm_loadl_pd, _mm_loadh_pd, _mm256_loadu_ps, _mm256_load_ps, _mm256_loadu_pd, _mm256_load_pd,
      _mm256_loadu_si256, _mm256_load_si256, _mm512_loadu_ps, _mm512_load_ps, _mm512_loadu_pd, _mm512_load_pd,
      _mm512_loadu_si512, _mm512_load_epi32, vld1q_f32, vec_lda, ld16, ld8, ld2x, ld4, ld2, gath4, gath2x, _mm256_i32gather_ps,
      _mm256_i32gather_epi32, _mm256_i32gather_pd, _mm512_i32gather_ps, _mm512_i32gather_epi32, _mm512_i32gather_pd,
      _mm512_i32logather_pd, _mm512_permute4f128_epi32, SHORTVEC_INSERT_PS_AVX, SHORTVEC_INSERT_PS, gaddr44, gaddr88, bind,
      Option.bind, Int.add_assoc, Int.reduceAdd, Int.add_zero, ho, hg] <;> rfl, rfl⟩

theorem scatter_law (E : FEnv) : ScatterLaw 16 V.lanes (fun mo v p o => scatter E mo v p o) 1 :=
  by
  intro mo v p o off ha ho
  have ho := at16 ho
  simp only [scatter, _mm_loadu_ps, _mm_load_ps, _mm_loadu_pd, _mm_load_pd, _mm_loadu_si128, _mm_load_si128, _mm_load_ss,
      _mm_loadl_pd, _mm_loadh_pd, _mm256_loadu_ps, _mm256_load_ps, _mm256_loadu_pd, _mm256_load_pd, _mm256_loadu_si256,
      _mm256_load_si256, _mm512_loadu_ps, _mm512_load_ps, _mm512_loadu_pd, _mm512_load_pd, _mm512_loadu_si512,
      _mm512_load_epi32, vld1q_f32, vec_lda, ld16, ld8, ld2x, ld4, ld2, _mm_storeu_ps, _mm_store_ps, _mm_stream_ps,
      _mm_store_ss, _mm_storeu_pd, _mm_store_pd, _mm_stream_pd, _mm_storel_pd, _mm_storeh_pd, _mm_storeu_si128, _mm_store_si128,
      _mm_stream_si128, _mm256_storeu_ps, _mm256_store_ps, _mm256_stream_ps, _mm256_storeu_pd, _mm256_store_pd,
      _mm256_stream_pd, _mm256_storeu_si256, _mm256_store_si256, _mm256_stream_si256, _mm512_storeu_ps, _mm512_store_ps,
      _mm512_stream_ps, _mm512_storenr_ps, _mm512_storeu_pd, _mm512_store_pd, _mm512_stream_pd, _mm512_storenr_pd,
      _mm512_storeu_si512, _mm512_store_epi32, _mm512_stream_si512, vst1q_f32, vec_sta, st, lanes4, lanes2, lanes24, lanes22,
      lanes224, lanes222, List.cons_append, List.nil_append, List.append_nil, scat, _mm512_i32scatter_ps,
      _mm512_i32scatter_epi32, _mm512_i32scatter_pd, _mm512_i32loscatter_pd, _mm512_permute4f128_epi32, bind, Option.bind,
      Int.add_assoc, Int.reduceAdd, Int.add_zero, ho, List.zipWith, gaddr44, gaddr88]
  rfl

theorem print_law (E : FEnv) : PrintLaw V.lanes (print E) :=
  fun _ => rfl

theorem opLt_law (E : FEnv) : CmpLaw V.lanes (MaskKind.bits 16 : MaskKind V (BitVec 16)) (fun a b => opLt E a b) E.f64.lt :=
  by
  intro a b
  refine ⟨(ofBools 32 [E.f64.lt a.val0.x0.x0.x0 b.val0.x0.x0.x0, E.f64.lt a.val0.x0.x0.x1 b.val0.x0.x0.x1, E.f64.lt
      a.val0.x0.x1.x0 b.val0.x0.x1.x0, E.f64.lt a.val0.x0.x1.x1 b.val0.x0.x1.x1, E.f64.lt a.val0.x1.x0.x0 b.val0.x1.x0.x0,
      E.f64.lt a.val0.x1.x0.x1 b.val0.x1.x0.x1, E.f64.lt a.val0.x1.x1.x0 b.val0.x1.x1.x0, E.f64.lt a.val0.x1.x1.x1
      b.val0.x1.x1.x1, E.f64.lt a.val1.x0.x0.x0 b.val1.x0.x0.x0, E.f64.lt a.val1.x0.x0.x1 b.val1.x0.x0.x1, E.f64.lt
      a.val1.x0.x1.x0 b.val1.x0.x1.x0, E.f64.lt a.val1.x0.x1.x1 b.val1.x0.x1.x1, E.f64.lt a.val1.x1.x0.x0 b.val1.x1.x0.x0,
      E.f64.lt a.val1.x1.x0.x1 b.val1.x1.x0.x1, E.f64.lt a.val1.x1.x1.x0 b.val1.x1.x1.x0, E.f64.lt a.val1.x1.x1.x1
      b.val1.x1.x1.x1]).setWidth 16, ?_, Nat.le_of_ble_eq_true rfl, fun i => repOf _ (Nat.le_of_ble_eq_true rfl) (by decide) i⟩
  have p0 : promote (_mm512_cmp_pd_mask E a.val0 b.val0 _CMP_LT_OS) <<< 0 = ofBools 32 [E.f64.lt a.val0.x0.x0.x0
      b.val0.x0.x0.x0, E.f64.lt a.val0.x0.x0.x1 b.val0.x0.x0.x1, E.f64.lt a.val0.x0.x1.x0 b.val0.x0.x1.x0, E.f64.lt
      a.val0.x0.x1.x1 b.val0.x0.x1.x1, E.f64.lt a.val0.x1.x0.x0 b.val0.x1.x0.x0, E.f64.lt a.val0.x1.x0.x1 b.val0.x1.x0.x1,
      E.f64.lt a.val0.x1.x1.x0 b.val0.x1.x1.x0, E.f64.lt a.val0.x1.x1.x1 b.val0.x1.x1.x1] := by
    rw [BitVec.shiftLeft_zero]; exact promote_ofBools _ (Nat.le_of_ble_eq_true rfl) (by decide)
  dsimp only [opLt]
  rw [p0]
  exact bindS (maskJoin 8 [E.f64.lt a.val0.x0.x0.x0 b.val0.x0.x0.x0, E.f64.lt a.val0.x0.x0.x1 b.val0.x0.x0.x1, E.f64.lt
      a.val0.x0.x1.x0 b.val0.x0.x1.x0, E.f64.lt a.val0.x0.x1.x1 b.val0.x0.x1.x1, E.f64.lt a.val0.x1.x0.x0 b.val0.x1.x0.x0,
      E.f64.lt a.val0.x1.x0.x1 b.val0.x1.x0.x1, E.f64.lt a.val0.x1.x1.x0 b.val0.x1.x1.x0, E.f64.lt a.val0.x1.x1.x1
      b.val0.x1.x1.x1] [E.f64.lt a.val1.x0.x0.x0 b.val1.x0.x0.x0, E.f64.lt a.val1.x0.x0.x1 b.val1.x0.x0.x1, E.f64.lt
      a.val1.x0.x1.x0 b.val1.x0.x1.x0, E.f64.lt a.val1.x0.x1.x1 b.val1.x0.x1.x1, E.f64.lt a.val1.x1.x0.x0 b.val1.x1.x0.x0,
      E.f64.lt a.val1.x1.x0.x1 b.val1.x1.x0.x1, E.f64.lt a.val1.x1.x1.x0 b.val1.x1.x1.x0, E.f64.lt a.val1.x1.x1.x1
      b.val1.x1.x1.x1] (Nat.le_of_ble_eq_true rfl) (by decide) (Nat.le_of_ble_eq_true rfl) (Nat.le_of_ble_eq_true rfl)) <| rfl

theorem opLe_law (E : FEnv) : CmpLaw V.lanes (MaskKind.bits 16 : MaskKind V (BitVec 16)) (fun a b => opLe E a b) E.f64.le :=
  by
  intro a b
  refine ⟨(ofBools 32 [E.f64.le a.val0.x0.x0.x0 b.val0.x0.x0.x0, E.f64.le a.val0.x0.x0.x1 b.val0.x0.x0.x1, E.f64.le
      a.val0.x0.x1.x0 b.val0.x0.x1.x0, E.f64.le a.val0.x0.x1.x1 b.val0.x0.x1.x1, E.f64.le a.val0.x1.x0.x0 b.val0.x1.x0.x0,
      E.f64.le a.val0.x1.x0.x1 b.val0.x1.x0.x1, E.f64.le a.val0.x1.x1.x0 b.val0.x1.x1.x0, E.f64.le a.val0.x1.x1.x1
      b.val0.x1.x1.x1, E.f64.le a.val1.x0.x0.x0 b.val1.x0.x0.x0, E.f64.le a.val1.x0.x0.x1 b.val1.x0.x0.x1, E.f64.le
      a.val1.x0.x1.x0 b.val1.x0.x1.x0, E.f64.le a.val1.x0.x1.x1 b.val1.x0.x1.x1, E.f64.le a.val1.x1.x0.x0 b.val1.x1.x0.x0,
      E.f64.le a.val1.x1.x0.x1 b.val1.x1.x0.x1, E.f64.le a.val1.x1.x1.x0 b.val1.x1.x1.x0, E.f64.le a.val1.x1.x1.x1
      b.val1.x1.x1.x1]).setWidth 16, ?_, Nat.le_of_ble_eq_true rfl, fun i => repOf _ (Nat.le_of_ble_eq_true rfl) (by decide) i⟩
  have p0 : promote (_mm512_cmp_pd_mask E a.val0 b.val0 _CMP_LE_OS) <<< 0 = ofBools 32 [E.f64.le a.val0.x0.x0.x0
      b.val0.x0.x0.x0, E.f64.le a.val0.x0.x0.x1 b.val0.x0.x0.x1, E.f64.le a.val0.x0.x1.x0 b.val0.x0.x1.x0, E.f64.le
      a.val0.x0.x1.x1 b.val0.x0.x1.x1, E.f64.le a.val0.x1.x0.x0 b.val0.x1.x0.x0, E.f64.le a.val0.x1.x0.x1 b.val0.x1.x0.x1,
      E.f64.le a.val0.x1.x1.x0 b.val0.x1.x1.x0, E.f64.le a.val0.x1.x1.x1 b.val0.x1.x1.x1] := by
    rw [BitVec.shiftLeft_zero]; exact promote_ofBools _ (Nat.le_of_ble_eq_true rfl) (by decide)
  dsimp only [opLe]
  rw [p0]
  exact bindS (maskJoin 8 [E.f64.le a.val0.x0.x0.x0 b.val0.x0.x0.x0, E.f64.le a.val0.x0.x0.x1 b.val0.x0.x0.x1, E.f64.le
      a.val0.x0.x1.x0 b.val0.x0.x1.x0, E.f64.le a.val0.x0.x1.x1 b.val0.x0.x1.x1, E.f64.le a.val0.x1.x0.x0 b.val0.x1.x0.x0,
      E.f64.le a.val0.x1.x0.x1 b.val0.x1.x0.x1, E.f64.le a.val0.x1.x1.x0 b.val0.x1.x1.x0, E.f64.le a.val0.x1.x1.x1
      b.val0.x1.x1.x1] [E.f64.le a.val1.x0.x0.x0 b.val1.x0.x0.x0, E.f64.le a.val1.x0.x0.x1 b.val1.x0.x0.x1, E.f64.le
      a.val1.x0.x1.x0 b.val1.x0.x1.x0, E.f64.le a.val1.x0.x1.x1 b.val1.x0.x1.x1, E.f64.le a.val1.x1.x0.x0 b.val1.x1.x0.x0,
      E.f64.le a.val1.x1.x0.x1 b.val1.x1.x0.x1, E.f64.le a.val1.x1.x1.x0 b.val1.x1.x1.x0, E.f64.le a.val1.x1.x1.x1
      b.val1.x1.x1.x1] (Nat.le_of_ble_eq_true rfl) (by decide) (Nat.le_of_ble_eq_true rfl) (Nat.le_of_ble_eq_true rfl)) <| rfl

theorem opEq_law (E : FEnv) : CmpLaw V.lanes (MaskKind.bits 16 : MaskKind V (BitVec 16)) (fun a b => opEq E a b) E.f64.eq :=
  by
  intro a b
  refine ⟨(ofBools 32 [E.f64.eq a.val0.x0.x0.x0 b.val0.x0.x0.x0, E.f64.eq a.val0.x0.x0.x1 b.val0.x0.x0.x1, E.f64.eq
      a.val0.x0.x1.x0 b.val0.x0.x1.x0, E.f64.eq a.val0.x0.x1.x1 b.val0.x0.x1.x1, E.f64.eq a.val0.x1.x0.x0 b.val0.x1.x0.x0,
      E.f64.eq a.val0.x1.x0.x1 b.val0.x1.x0.x1, E.f64.eq a.val0.x1.x1.x0 b.val0.x1.x1.x0, E.f64.eq a.val0.x1.x1.x1
      b.val0.x1.x1.x1, E.f64.eq a.val1.x0.x0.x0 b.val1.x0.x0.x0, E.f64.eq a.val1.x0.x0.x1 b.val1.x0.x0.x1, E.f64.eq
      a.val1.x0.x1.x0 b.val1.x0.x1.x0, E.f64.eq a.val1.x0.x1.x1 b.val1.x0.x1.x1, E.f64.eq a.val1.x1.x0.x0 b.val1.x1.x0.x0,
      E.f64.eq a.val1.x1.x0.x1 b.val1.x1.x0.x1, E.f64.eq a.val1.x1.x1.x0 b.val1.x1.x1.x0, E.f64.eq a.val1.x1.x1.x1
      b.val1.x1.x1.x1]).setWidth 16, ?_, Nat.le_of_ble_eq_true rfl, fun i => repOf _ (Nat.le_of_ble_eq_true rfl) (by decide) i⟩
  have p0 : promote (_mm512_cmp_pd_mask E a.val0 b.val0 _CMP_EQ_OQ) <<< 0 = ofBools 32 [E.f64.eq a.val0.x0.x0.x0
      b.val0.x0.x0.x0, E.f64.eq a.val0.x0.x0.x1 b.val0.x0.x0.x1, E.f64.eq a.val0.x0.x1.x0 b.val0.x0.x1.x0, E.f64.eq
      a.val0.x0.x1.x1 b.val0.x0.x1.x1, E.f64.eq a.val0.x1.x0.x0 b.val0.x1.x0.x0, E.f64.eq a.val0.x1.x0.x1 b.val0.x1.x0.x1,
      E.f64.eq a.val0.x1.x1.x0 b.val0.x1.x1.x0, E.f64.eq a.val0.x1.x1.x1 b.val0.x1.x1.x1] := by
    rw [BitVec.shiftLeft_zero]; exact promote_ofBools _ (Nat.le_of_ble_eq_true rfl) (by decide)
  dsimp only [opEq]
  rw [p0]
  exact bindS (maskJoin 8 [E.f64.eq a.val0.x0.x0.x0 b.val0.x0.x0.x0, E.f64.eq a.val0.x0.x0.x1 b.val0.x0.x0.x1, E.f64.eq
      a.val0.x0.x1.x0 b.val0.x0.x1.x0, E.f64.eq a.val0.x0.x1.x1 b.val0.x0.x1.x1, E.f64.eq a.val0.x1.x0.x0 b.val0.x1.x0.x0,
      E.f64.eq a.val0.x1.x0.x1 b.val0.x1.x0.x1, E.f64.eq a.val0.x1.x1.x0 b.val0.x1.x1.x0, E.f64.eq a.val0.x1.x1.x1
      b.val0.x1.x1.x1] [E.f64.eq a.val1.x0.x0.x0 b.val1.x0.x0.x0, E.f64.eq a.val1.x0.x0.x1 b.val1.x0.x0.x1, E.f64.eq
      a.val1.x0.x1.x0 b.val1.x0.x1.x0, E.f64.eq a.val1.x0.x1.x1 b.val1.x0.x1.x1, E.f64.eq a.val1.x1.x0.x0 b.val1.x1.x0.x0,
      E.f64.eq a.val1.x1.x0.x1 b.val1.x1.x0.x1, E.f64.eq a.val1.x1.x1.x0 b.val1.x1.x1.x0, E.f64.eq a.val1.x1.x1.x1
      b.val1.x1.x1.x1] (Nat.le_of_ble_eq_true rfl) (by decide) (Nat.le_of_ble_eq_true rfl) (Nat.le_of_ble_eq_true rfl)) <| rfl

theorem opGt_law (E : FEnv) : CmpLaw V.lanes (MaskKind.bits 16 : MaskKind V (BitVec 16)) (fun a b => opGt E a b) E.f64.gt :=
  by
  intro a b
  refine ⟨(ofBools 32 [E.f64.gt a.val0.x0.x0.x0 b.val0.x0.x0.x0, E.f64.gt a.val0.x0.x0.x1 b.val0.x0.x0.x1, E.f64.gt
      a.val0.x0.x1.x0 b.val0.x0.x1.x0, E.f64.gt a.val0.x0.x1.x1 b.val0.x0.x1.x1, E.f64.gt a.val0.x1.x0.x0 b.val0.x1.x0.x0,
      E.f64.gt a.val0.x1.x0.x1 b.val0.x1.x0.x1, E.f64.gt a.val0.x1.x1.x0 b.val0.x1.x1.x0, E.f64.gt a.val0.x1.x1.x1
      b.val0.x1.x1.x1, E.f64.gt a.val1.x0.x0.x0 b.val1.x0.x0.x0, E.f64.gt a.val1.x0.x0.x1 b.val1.x0.x0.x1, E.f64.gt
      a.val1.x0.x1.x0 b.val1.x0.x1.x0, E.f64.gt a.val1.x0.x1.x1 b.val1.x0.x1.x1, E.f64.gt a.val1.x1.x0.x0 b.val1.x1.x0.x0,
      E.f64.gt a.val1.x1.x0.x1 b.val1.x1.x0.x1, E.f64.gt a.val1.x1.x1.x0 b.val1.x1.x1.x0, E.f64.gt a.val1.x1.x1.x1
      b.val1.x1.x1.x1]).setWidth 16, ?_, Nat.le_of_ble_eq_true rfl, fun i => repOf _ (Nat.le_of_ble_eq_true rfl) (by decide) i⟩
  have p0 : promote (_mm512_cmp_pd_mask E a.val0 b.val0 _CMP_GT_OS) <<< 0 = ofBools 32 [E.f64.gt a.val0.x0.x0.x0
      b.val0.x0.x0.x0, E.f64.gt a.val0.x0.x0.x1 b.val0.x0.x0.x1, E.f64.gt a.val0.x0.x1.x0 b.val0.x0.x1.x0, E.f64.gt
      a.val0.x0.x1.x1 b.val0.x0.x1.x1, E.f64.gt a.val0.x1.x0.x0 b.val0.x1.x0.x0, E.f64.gt a.val0.x1.x0.x1 b.val0.x1.x0.x1,
      E.f64.gt a.val0.x1.x1.x0 b.val0.x1.x1.x0, E.f64.gt a.val0.x1.x1.x1 b.val0.x1.x1.x1] := by
    rw [BitVec.shiftLeft_zero]; exact promote_ofBools _ (Nat.le_of_ble_eq_true rfl) (by decide)
  dsimp only [opGt]
  rw [p0]
  exact bindS (maskJoin 8 [E.f64.gt a.val0.x0.x0.x0 b.val0.x0.x0.x0, E.f64.gt a.val0.x0.x0.x1 b.val0.x0.x0.x1, E.f64.gt
      a.val0.x0.x1.x0 b.val0.x0.x1.x0, E.f64.gt a.val0.x0.x1.x1 b.val0.x0.x1.x1, E.f64.gt a.val0.x1.x0.x0 b.val0.x1.x0.x0,
      E.f64.gt a.val0.x1.x0.x1 b.val0.x1.x0.x1, E.f64.gt a.val0.x1.x1.x0 b.val0.x1.x1.x0, E.f64.gt a.val0.x1.x1.x1
      b.val0.x1.x1.x1] [E.f64.gt a.val1.x0.x0.x0 b.val1.x0.x0.x0, E.f64.gt a.val1.x0.x0.x1 b.val1.x0.x0.x1, E.f64.gt
      a.val1.x0.x1.x0 b.val1.x0.x1.x0, E.f64.gt a.val1.x0.x1.x1 b.val1.x0.x1.x1, E.f64.gt a.val1.x1.x0.x0 b.val1.x1.x0.x0,
      E.f64.gt a.val1.x1.x0.x1 b.val1.x1.x0.x1, E.f64.gt a.val1.x1.x1.x0 b.val1.x1.x1.x0, E.f64.gt a.val1.x1.x1.x1
      b.val1.x1.x1.x1] (Nat.le_of_ble_eq_true rfl) (by decide) (Nat.le_of_ble_eq_true rfl) (Nat.le_of_ble_eq_true rfl)) <| rfl

theorem opGe_law (E : FEnv) : CmpLaw V.lanes (MaskKind.bits 16 : MaskKind V (BitVec 16)) (fun a b => opGe E a b) E.f64.ge :=
  by
  intro a b
  refine ⟨(ofBools 32 [E.f64.ge a.val0.x0.x0.x0 b.val0.x0.x0.x0, E.f64.ge a.val0.x0.x0.x1 b.val0.x0.x0.x1, E.f64.ge
      a.val0.x0.x1.x0 b.val0.x0.x1.x0, E.f64.ge a.val0.x0.x1.x1 b.val0.x0.x1.x1, E.f64.ge a.val0.x1.x0.x0 b.val0.x1.x0.x0,
      E.f64.ge a.val0.x1.x0.x1 b.val0.x1.x0.x1, E.f64.ge a.val0.x1.x1.x0 b.val0.x1.x1.x0, E.f64.ge a.val0.x1.x1.x1
      b.val0.x1.x1.x1, E.f64.ge a.val1.x0.x0.x0 b.val1.x0.x0.x0, E.f64.ge a.val1.x0.x0.x1 b.val1.x0.x0.x1, E.f64.ge
      a.val1.x0.x1.x0 b.val1.x0.x1.x0, E.f64.ge a.val1.x0.x1.x1 b.val1.x0.x1.x1, E.f64.ge a.val1.x1.x0.x0 b.val1.x1.x0.x0,
      E.f64.ge a.val1.x1.x0.x1 b.val1.x1.x0.x1, E.f64.ge a.val1.x1.x1.x0 b.val1.x1.x1.x0, E.f64.ge a.val1.x1.x1.x1
      b.val1.x1.x1.x1]).setWidth 16, ?_, Nat.le_of_ble_eq_true rfl, fun i => repOf _ (Nat.le_of_ble_eq_true rfl) (by decide) i⟩
  have p0 : promote (_mm512_cmp_pd_mask E a.val0 b.val0 _CMP_GE_OS) <<< 0 = ofBools 32 [E.f64.ge a.val0.x0.x0.x0
      b.val0.x0.x0.x0, E.f64.ge a.val0.x0.x0.x1 b.val0.x0.x0.x1, E.f64.ge a.val0.x0.x1.x0 b.val0.x0.x1.x0, E.f64.ge
      a.val0.x0.x1.x1 b.val0.x0.x1.x1, E.f64.ge a.val0.x1.x0.x0 b.val0.x1.x0.x0, E.f64.ge a.val0.x1.x0.x1 b.val0.x1.x0.x1,
      E.f64.ge a.val0.x1.x1.x0 b.val0.x1.x1.x0, E.f64.ge a.val0.x1.x1.x1 b.val0.x1.x1.x1] := by
    rw [BitVec.shiftLeft_zero]; exact promote_ofBools _ (Nat.le_of_ble_eq_true rfl) (by decide)
  dsimp only [opGe]
  rw [p0]
  exact bindS (maskJoin 8 [E.f64.ge a.val0.x0.x0.x0 b.val0.x0.x0.x0, E.f64.ge a.val0.x0.x0.x1 b.val0.x0.x0.x1, E.f64.ge
      a.val0.x0.x1.x0 b.val0.x0.x1.x0, E.f64.ge a.val0.x0.x1.x1 b.val0.x0.x1.x1, E.f64.ge a.val0.x1.x0.x0 b.val0.x1.x0.x0,
      E.f64.ge a.val0.x1.x0.x1 b.val0.x1.x0.x1, E.f64.ge a.val0.x1.x1.x0 b.val0.x1.x1.x0, E.f64.ge a.val0.x1.x1.x1
      b.val0.x1.x1.x1] [E.f64.ge a.val1.x0.x0.x0 b.val1.x0.x0.x0, E.f64.ge a.val1.x0.x0.x1 b.val1.x0.x0.x1, E.f64.ge
      a.val1.x0.x1.x0 b.val1.x0.x1.x0, E.f64.ge a.val1.x0.x1.x1 b.val1.x0.x1.x1, E.f64.ge a.val1.x1.x0.x0 b.val1.x1.x0.x0,
      E.f64.ge a.val1.x1.x0.x1 b.val1.x1.x0.x1, E.f64.ge a.val1.x1.x1.x0 b.val1.x1.x1.x0, E.f64.ge a.val1.x1.x1.x1
      b.val1.x1.x1.x1] (Nat.le_of_ble_eq_true rfl) (by decide) (Nat.le_of_ble_eq_true rfl) (Nat.le_of_ble_eq_true rfl)) <| rfl

theorem blend_law (E : FEnv) : BlendLaw 16 V.lanes (MaskKind.bits 16 : MaskKind V (BitVec 16)) (blend E) :=
  by
  intro a m b bs hl hr
  obtain ⟨b0, b1, b2, b3, b4, b5, b6, b7, b8, b9, b10, b11, b12, b13, b14, b15, rfl⟩ := len16 hl
  have hr := rep16 hr.2
  dsimp only [blend, _mm512_mask_blend_ps, _mm512_mask_blend_pd, blendAt4, blendAt2, pick]
  simp only [psh8, psh16, sel8, sel16, selLo, promote_get, Nat.reduceAdd, Nat.reduceLT, Nat.zero_add, Nat.add_zero, decide_true,
      Bool.true_and, hr] <;> rfl

theorem any_law (E : FEnv) : AnyLaw 16 V.lanes (MaskKind.vec : MaskKind V V) (any E) :=
  by
  intro m bs hl hr
  obtain ⟨b0, b1, b2, b3, b4, b5, b6, b7, b8, b9, b10, b11, b12, b13, b14, b15, rfl⟩ := len16 hl
  change [m.val0.x0.x0.x0, m.val0.x0.x0.x1, m.val0.x0.x1.x0, m.val0.x0.x1.x1, m.val0.x1.x0.x0, m.val0.x1.x0.x1, m.val0.x1.x1.x0,
      m.val0.x1.x1.x1, m.val1.x0.x0.x0, m.val1.x0.x0.x1, m.val1.x0.x1.x0, m.val1.x0.x1.x1, m.val1.x1.x0.x0, m.val1.x1.x0.x1,
      m.val1.x1.x1.x0, m.val1.x1.x1.x1] = [pat 64 b0, pat 64 b1, pat 64 b2, pat 64 b3, pat 64 b4, pat 64 b5, pat 64 b6, pat 64
      b7, pat 64 b8, pat 64 b9, pat 64 b10, pat 64 b11, pat 64 b12, pat 64 b13, pat 64 b14, pat 64 b15] at hr
  simp only [List.cons.injEq, and_true] at hr
  dsimp only [any]
  simp only [_mm_castps_si128, _mm_castpd_si128, _mm256_castps_si256, _mm256_castpd_si256, _mm512_castps_si512,
      _mm512_castpd_si512, _mm_or_ps, _mm_or_pd, _mm256_or_ps, _mm256_or_pd, _mm512_or_ps, _mm512_or_pd, R4.map2, R2.map2,
      R4.map, R2.map, _mm_shuffle_ps, _mm_shuffle_pd, _mm_testz_si128, _mm256_testz_si256, _mm512_test_epi64_mask,
      _mm256_extractf128_ps, _mm256_extractf128_pd, R4.sel, R2.sel, _mm_cvtss_f32, _mm_cvtsd_f64, pat_or, pat_and_self,
      truthy32, truthy64, pat_lo, pat_hi, pat32_eq_zero, pat32_ne_zero, zero_eq_b2i, b2i_eq_one, Nat.reduceMod,
      Nat.reduceShiftRight, Nat.reduceEqDiff, if_true, if_false, reduceIte, List.cons_append, List.nil_append, ofBools_ne_zero,
      List.any, List.any_cons, List.any_nil, id, Bool.not_and, Bool.not_not, Bool.or_self, Bool.or_false, Bool.not_or,
      Bool.or_assoc, hr]
  rw [ofBools_ne_zero _ (Nat.le_of_ble_eq_true rfl)]
  simp only [List.any_cons, List.any_nil, id, Bool.or_false, Bool.or_assoc]
  try ac_rfl

theorem opIndex_law (E : FEnv) : IndexLaw 16 V.lanes (fun v i => opIndex E v i) :=
  fun _ => ofAll16 ⟨rfl, rfl, rfl, rfl, rfl, rfl, rfl, rfl, rfl, rfl, rfl, rfl, rfl, rfl, rfl, rfl⟩

end LFA.SV.Avx512Double16

namespace LFA.SV.Avx512Double32

theorem len_law : LenLaw 32 V.lanes :=
  fun _ => rfl

theorem bcast_law (E : FEnv) : BcastLaw 32 V.lanes (bcast E) :=
  fun _ => rfl

theorem opAdd_law (E : FEnv) : BinLaw V.lanes (fun a b => some (opAdd E a b)) ((LaneOps.ieee FEnv.f64).add E) :=
  binSome (fun _ _ => rfl)

theorem opSub_law (E : FEnv) : BinLaw V.lanes (fun a b => some (opSub E a b)) ((LaneOps.ieee FEnv.f64).sub E) :=
  binSome (fun _ _ => rfl)

theorem opMul_law (E : FEnv) : BinLaw V.lanes (fun a b => some (opMul E a b)) ((LaneOps.ieee FEnv.f64).mul E) :=
  binSome (fun _ _ => rfl)

theorem opDiv_law (E : FEnv) : BinLaw V.lanes (fun a b => some (opDiv E a b)) ((LaneOps.ieee FEnv.f64).div E) :=
  binSome (fun _ _ => rfl)

theorem opAddAssign_law (E : FEnv) : BinLaw V.lanes (fun a b => some (opAddAssign E a b)) ((LaneOps.ieee FEnv.f64).add E) :=
  binSome (fun _ _ => rfl)

theorem opSubAssign_law (E : FEnv) : BinLaw V.lanes (fun a b => some (opSubAssign E a b)) ((LaneOps.ieee FEnv.f64).sub E) :=
  binSome (fun _ _ => rfl)

theorem opMulAssign_law (E : FEnv) : BinLaw V.lanes (fun a b => some (opMulAssign E a b)) ((LaneOps.ieee FEnv.f64).mulA E) :=
  binSome (fun _ _ => rfl)

theorem opDivAssign_law (E : FEnv) : BinLaw V.lanes (fun a b => some (opDivAssign E a b)) ((LaneOps.ieee FEnv.f64).divA E) :=
  binSome (fun _ _ => rfl)

theorem sqrtFn_law (E : FEnv) : UnLaw V.lanes (fun a => some (sqrtFn E a)) ((LaneOps.ieee FEnv.f64).sqrt E) :=
  unSome (fun _ => rfl)

theorem sqrt_law (E : FEnv) : UnLaw V.lanes (fun a => some (sqrt E a)) ((LaneOps.ieee FEnv.f64).sqrt E) :=
  unSome (fun _ => rfl)

theorem load_law (E : FEnv) (v : V) : LoadLaw 32 V.lanes (fun m p => load E m v p) 1 :=
  by
  intro m p g ha h
  have h := at32 h
  exact ⟨_, by simp only [load, load, _mm_loadu_ps, _mm_load_ps, _mm_loadu_pd, _mm_load_pd, _mm_loadu_si128, _mm_load_si128,
      _mm_load_ss, _mm_loadl_pd, _mm_loadh_pd, _mm256_loadu_ps, _mm256_load_ps, _mm256_loadu_pd, _mm256_load_pd,
      _mm256_loadu_si256, _mm256_load_si256, _mm512_loadu_ps, _mm512_load_ps, _mm512_loadu_pd, _mm512_load_pd,
      _mm512_loadu_si512, _mm512_load_epi32, vld1q_f32, vec_lda, ld16, ld8, ld2x, ld4, ld2, bind, Option.bind, Int.add_assoc,
      Int.reduceAdd, Int.add_zero, h] <;> rfl, rfl⟩

theorem load_aligned_law (E : FEnv) (v : V) : LoadLaw 32 V.lanes (fun m p => load_aligned E m v p) 64 :=
  by
  intro m p g ha h
  have ha : aligned 8 p 64 = true := ha
  have a16_0 := assertAligned_ok (aligned_of_dvd (al' := 16) ha (by decide))
  have a16_2 := assertAligned_ok (aligned_add 2 (aligned_of_dvd (al' := 16) ha (by decide)) (by decide))
  have a16_4 := assertAligned_ok (aligned_add 4 (aligned_of_dvd (al' := 16) ha (by decide)) (by decide))
  have a16_6 := assertAligned_ok (aligned_add 6 (aligned_of_dvd (al' := 16) ha (by decide)) (by decide))
  have a16_8 := assertAligned_ok (aligned_add 8 (aligned_of_dvd (al' := 16) ha (by decide)) (by decide))
  have a16_10 := assertAligned_ok (aligned_add 10 (aligned_of_dvd (al' := 16) ha (by decide)) (by decide))
  have a16_12 := assertAligned_ok (aligned_add 12 (aligned_of_dvd (al' := 16) ha (by decide)) (by decide))
  have a16_14 := assertAligned_ok (aligned_add 14 (aligned_of_dvd (al' := 16) ha (by decide)) (by decide))
  have a16_16 := assertAligned_ok (aligned_add 16 (aligned_of_dvd (al' := 16) ha (by decide)) (by decide))
  have a16_18 := assertAligned_ok (aligned_add 18 (aligned_of_dvd (al' := 16) ha (by decide)) (by decide))
  have a16_20 := assertAligned_ok (aligned_add 20 (aligned_of_dvd (al' := 16) ha (by decide)) (by decide))
  have a16_22 := assertAligned_ok (aligned_add 22 (aligned_of_dvd (al' := 16) ha (by decide)) (by decide))
  have a16_24 := assertAligned_ok (aligned_add 24 (aligned_of_dvd (al' := 16) ha (by decide)) (by decide))
  have a16_26 := assertAligned_ok (aligned_add 26 (aligned_of_dvd (al' := 16) ha (by decide)) (by decide))
  have a16_28 := assertAligned_ok (aligned_add 28 (aligned_of_dvd (al' := 16) ha (by decide)) (by decide))
  have a16_30 := assertAligned_ok (aligned_add 30 (aligned_of_dvd (al' := 16) ha (by decide)) (by decide))
  have a32_0 := assertAligned_ok (aligned_of_dvd (al' := 32) ha (by decide))
  have a32_4 := assertAligned_ok (aligned_add 4 (aligned_of_dvd (al' := 32) ha (by decide)) (by decide))
  have a32_8 := assertAligned_ok (aligned_add 8 (aligned_of_dvd (al' := 32) ha (by decide)) (by decide))
  have a32_12 := assertAligned_ok (aligned_add 12 (aligned_of_dvd (al' := 32) ha (by decide)) (by decide))
  have a32_16 := assertAligned_ok (aligned_add 16 (aligned_of_dvd (al' := 32) ha (by decide)) (by decide))
  have a32_20 := assertAligned_ok (aligned_add 20 (aligned_of_dvd (al' := 32) ha (by decide)) (by decide))
  have a32_24 := assertAligned_ok (aligned_add 24 (aligned_of_dvd (al' := 32) ha (by decide)) (by decide))
  have a32_28 := assertAligned_ok (aligned_add 28 (aligned_of_dvd (al' := 32) ha (by decide)) (by decide))
  have a64_0 := assertAligned_ok (aligned_of_dvd (al' := 64) ha (by decide))
  have a64_8 := assertAligned_ok (aligned_add 8 (aligned_of_dvd (al' := 64) ha (by decide)) (by decide))
  have a64_16 := assertAligned_ok (aligned_add 16 (aligned_of_dvd (al' := 64) ha (by decide)) (by decide))
  have a64_24 := assertAligned_ok (aligned_add 24 (aligned_of_dvd (al' := 64) ha (by decide)) (by decide))
  have h := at32 h
  exact ⟨_, by simp only [load_aligned, load, _mm_loadu_ps, _mm_load_ps, _mm_loadu_pd, _mm_load_pd, _mm_loadu_si128,
      _mm_load_si128, _mm_load_ss, _mm_loadl_pd, _mm_loadh_pd, _mm256_loadu_ps, _mm256_load_ps, _mm256_loadu_pd, _mm256_load_pd,
      _mm256_loadu_si256, _mm256_load_si256, _mm512_loadu_ps, _mm512_load_ps, _mm512_loadu_pd, _mm512_load_pd,
      _mm512_loadu_si512, _mm512_load_epi32, vld1q_f32, vec_lda, ld16, ld8, ld2x, ld4, ld2, bind, Option.bind, Int.add_assoc,
      Int.reduceAdd, Int.add_zero, h, a16_0, a16_2, a16_4, a16_6, a16_8, a16_10, a16_12, a16_14, a16_16, a16_18, a16_20, a16_22,
      a16_24, a16_26, a16_28, a16_30, a32_0, a32_4, a32_8, a32_12, a32_16, a32_20, a32_24, a32_28, a64_0, a64_8, a64_16, a64_24]
      <;> rfl, rfl⟩

theorem ofPtr_law (E : FEnv) : LoadLaw 32 V.lanes (fun m p => ofPtr E m p) 1 :=
  by
  intro m p g ha h
  obtain ⟨v, h1, h2⟩ := load_law E _ m p g ha h
  exact ⟨v, bindS h1 rfl, h2⟩

theorem ofList_law (E : FEnv) : LoadLaw 32 V.lanes (fun m p => ofList E m p) 1 :=
  by
  intro m p g ha h
  obtain ⟨v, h1, h2⟩ := load_law E _ m p g ha h
  exact ⟨v, bindS h1 rfl, h2⟩

theorem store_law (E : FEnv) : StoreLaw 32 V.lanes (fun v p => store E v p) 1 :=
  storeOf (fun _ => rfl) fun v p ha => by
  change _ = some (st p [v.val0.x0.x0.x0, v.val0.x0.x0.x1, v.val0.x0.x1.x0, v.val0.x0.x1.x1, v.val0.x1.x0.x0, v.val0.x1.x0.x1,
      v.val0.x1.x1.x0, v.val0.x1.x1.x1, v.val1.x0.x0.x0, v.val1.x0.x0.x1, v.val1.x0.x1.x0, v.val1.x0.x1.x1, v.val1.x1.x0.x0,
      v.val1.x1.x0.x1, v.val1.x1.x1.x0, v.val1.x1.x1.x1, v.val2.x0.x0.x0, v.val2.x0.x0.x1, v.val2.x0.x1.x0, v.val2.x0.x1.x1,
      v.val2.x1.x0.x0, v.val2.x1.x0.x1, v.val2.x1.x1.x0, v.val2.x1.x1.x1, v.val3.x0.x0.x0, v.val3.x0.x0.x1, v.val3.x0.x1.x0,
      v.val3.x0.x1.x1, v.val3.x1.x0.x0, v.val3.x1.x0.x1, v.val3.x1.x1.x0, v.val3.x1.x1.x1])
  simp only [store, store, _mm_storeu_ps, _mm_store_ps, _mm_stream_ps, _mm_store_ss, _mm_storeu_pd, _mm_store_pd, _mm_stream_pd,
      _mm_storel_pd, _mm_storeh_pd, _mm_storeu_si128, _mm_store_si128, _mm_stream_si128, _mm256_storeu_ps, _mm256_store_ps,
      _mm256_stream_ps, _mm256_storeu_pd, _mm256_store_pd, _mm256_stream_pd, _mm256_storeu_si256, _mm256_store_si256,
      _mm256_stream_si256, _mm512_storeu_ps, _mm512_store_ps, _mm512_stream_ps, _mm512_storenr_ps, _mm512_storeu_pd,
      _mm512_store_pd, _mm512_stream_pd, _mm512_storenr_pd, _mm512_storeu_si512, _mm512_store_epi32, _mm512_stream_si512,
      vst1q_f32, vec_sta, st, lanes4, lanes2, lanes24, lanes22, lanes224, lanes222, List.cons_append, List.nil_append,
      List.append_nil, bind, Option.bind, Int.add_assoc, Int.reduceAdd, Int.add_zero]

theorem store_aligned_law (E : FEnv) : StoreLaw 32 V.lanes (fun v p => store_aligned E v p) 64 :=
  storeOf (fun _ => rfl) fun v p ha => by
  have ha : aligned 8 p 64 = true := ha
  have a16_0 := assertAligned_ok (aligned_of_dvd (al' := 16) ha (by decide))
  have a16_2 := assertAligned_ok (aligned_add 2 (aligned_of_dvd (al' := 16) ha (by decide)) (by decide))
  have a16_4 := assertAligned_ok (aligned_add 4 (aligned_of_dvd (al' := 16) ha (by decide)) (by decide))
  have a16_6 := assertAligned_ok (aligned_add 6 (aligned_of_dvd (al' := 16) ha (by decide)) (by decide))
  have a16_8 := assertAligned_ok (aligned_add 8 (aligned_of_dvd (al' := 16) ha (by decide)) (by decide))
  have a16_10 := assertAligned_ok (aligned_add 10 (aligned_of_dvd (al' := 16) ha (by decide)) (by decide))
  have a16_12 := assertAligned_ok (aligned_add 12 (aligned_of_dvd (al' := 16) ha (by decide)) (by decide))
  have a16_14 := assertAligned_ok (aligned_add 14 (aligned_of_dvd (al' := 16) ha (by decide)) (by decide))
  have a16_16 := assertAligned_ok (aligned_add 16 (aligned_of_dvd (al' := 16) ha (by decide)) (by decide))
  have a16_18 := assertAligned_ok (aligned_add 18 (aligned_of_dvd (al' := 16) ha (by decide)) (by decide))
  have a16_20 := assertAligned_ok (aligned_add 20 (aligned_of_dvd (al' := 16) ha (by decide)) (by decide))
  have a16_22 := assertAligned_ok (aligned_add 22 (aligned_of_dvd (al' := 16) ha (by decide)) (by decide))
  have a16_24 := assertAligned_ok (aligned_add 24 (aligned_of_dvd (al' := 16) ha (by decide)) (by decide))
  have a16_26 := assertAligned_ok (aligned_add 26 (aligned_of_dvd (al' := 16) ha (by decide)) (by decide))
  have a16_28 := assertAligned_ok (aligned_add 28 (aligned_of_dvd (al' := 16) ha (by decide)) (by decide))
  have a16_30 := assertAligned_ok (aligned_add 30 (aligned_of_dvd (al' := 16) ha (by decide)) (by decide))
  have a32_0 := assertAligned_ok (aligned_of_dvd (al' := 32) ha (by decide))
  have a32_4 := assertAligned_ok (aligned_add 4 (aligned_of_dvd (al' := 32) ha (by decide)) (by decide))
  have a32_8 := assertAligned_ok (aligned_add 8 (aligned_of_dvd (al' := 32) ha (by decide)) (by decide))
  have a32_12 := assertAligned_ok (aligned_add 12 (aligned_of_dvd (al' := 32) ha (by decide)) (by decide))
  have a32_16 := assertAligned_ok (aligned_add 16 (aligned_of_dvd (al' := 32) ha (by decide)) (by decide))
  have a32_20 := assertAligned_ok (aligned_add 20 (aligned_of_dvd (al' := 32) ha (by decide)) (by decide))
  have a32_24 := assertAligned_ok (aligned_add 24 (aligned_of_dvd (al' := 32) ha (by decide)) (by decide))
  have a32_28 := assertAligned_ok (aligned_add 28 (aligned_of_dvd (al' := 32) ha (by decide)) (by decide))
  have a64_0 := assertAligned_ok (aligned_of_dvd (al' := 64) ha (by decide))
  have a64_8 := assertAligned_ok (aligned_add 8 (aligned_of_dvd (al' := 64) ha (by decide)) (by decide))
  have a64_16 := assertAligned_ok (aligned_add 16 (aligned_of_dvd (al' := 64) ha (by decide)) (by decide))
  have a64_24 := assertAligned_ok (aligned_add 24 (aligned_of_dvd (al' := 64) ha (by decide)) (by decide))
  change _ = some (st p [v.val0.x0.x0.x0, v.val0.x0.x0.x1, v.val0.x0.x1.x0, v.val0.x0.x1.x1, v.val0.x1.x0.x0, v.val0.x1.x0.x1,
      v.val0.x1.x1.x0, v.val0.x1.x1.x1, v.val1.x0.x0.x0, v.val1.x0.x0.x1, v.val1.x0.x1.x0, v.val1.x0.x1.x1, v.val1.x1.x0.x0,
      v.val1.x1.x0.x1, v.val1.x1.x1.x0, v.val1.x1.x1.x1, v.val2.x0.x0.x0, v.val2.x0.x0.x1, v.val2.x0.x1.x0, v.val2.x0.x1.x1,
      v.val2.x1.x0.x0, v.val2.x1.x0.x1, v.val2.x1.x1.x0, v.val2.x1.x1.x1, v.val3.x0.x0.x0, v.val3.x0.x0.x1, v.val3.x0.x1.x0,
      v.val3.x0.x1.x1, v.val3.x1.x0.x0, v.val3.x1.x0.x1, v.val3.x1.x1.x0, v.val3.x1.x1.x1])
  simp only [store_aligned, store, _mm_storeu_ps, _mm_store_ps, _mm_stream_ps, _mm_store_ss, _mm_storeu_pd, _mm_store_pd,
      _mm_stream_pd, _mm_storel_pd, _mm_storeh_pd, _mm_storeu_si128, _mm_store_si128, _mm_stream_si128, _mm256_storeu_ps,
      _mm256_store_ps, _mm256_stream_ps, _mm256_storeu_pd, _mm256_store_pd, _mm256_stream_pd, _mm256_storeu_si256,
      _mm256_store_si256, _mm256_stream_si256, _mm512_storeu_ps, _mm512_store_ps, _mm512_stream_ps, _mm512_storenr_ps,
      _mm512_storeu_pd, _mm512_store_pd, _mm512_stream_pd, _mm512_storenr_pd, _mm512_storeu_si512, _mm512_store_epi32,
      _mm512_stream_si512, vst1q_f32, vec_sta, st, lanes4, lanes2, lanes24, lanes22, lanes224, lanes222, List.cons_append,
      List.nil_append, List.append_nil, bind, Option.bind, Int.add_assoc, Int.reduceAdd, Int.add_zero, a16_0, a16_2, a16_4,
      a16_6, a16_8, a16_10, a16_12, a16_14, a16_16, a16_18, a16_20, a16_22, a16_24, a16_26, a16_28, a16_30, a32_0, a32_4, a32_8,
      a32_12, a32_16, a32_20, a32_24, a32_28, a64_0, a64_8, a64_16, a64_24]

theorem store_nt_law (E : FEnv) : StoreLaw 32 V.lanes (fun v p => store_nt E v p) 64 :=
  storeOf (fun _ => rfl) fun v p ha => by
  have ha : aligned 8 p 64 = true := ha
  have a16_0 := assertAligned_ok (aligned_of_dvd (al' := 16) ha (by decide))
  have a16_2 := assertAligned_ok (aligned_add 2 (aligned_of_dvd (al' := 16) ha (by decide)) (by decide))
  have a16_4 := assertAligned_ok (aligned_add 4 (aligned_of_dvd (al' := 16) ha (by decide)) (by decide))
  have a16_6 := assertAligned_ok (aligned_add 6 (aligned_of_dvd (al' := 16) ha (by decide)) (by decide))
  have a16_8 := assertAligned_ok (aligned_add 8 (aligned_of_dvd (al' := 16) ha (by decide)) (by decide))
  have a16_10 := assertAligned_ok (aligned_add 10 (aligned_of_dvd (al' := 16) ha (by decide)) (by decide))
  have a16_12 := assertAligned_ok (aligned_add 12 (aligned_of_dvd (al' := 16) ha (by decide)) (by decide))
  have a16_14 := assertAligned_ok (aligned_add 14 (aligned_of_dvd (al' := 16) ha (by decide)) (by decide))
  have a16_16 := assertAligned_ok (aligned_add 16 (aligned_of_dvd (al' := 16) ha (by decide)) (by decide))
  have a16_18 := assertAligned_ok (aligned_add 18 (aligned_of_dvd (al' := 16) ha (by decide)) (by decide))
  have a16_20 := assertAligned_ok (aligned_add 20 (aligned_of_dvd (al' := 16) ha (by decide)) (by decide))
  have a16_22 := assertAligned_ok (aligned_add 22 (aligned_of_dvd (al' := 16) ha (by decide)) (by decide))
  have a16_24 := assertAligned_ok (aligned_add 24 (aligned_of_dvd (al' := 16) ha (by decide)) (by decide))
  have a16_26 := assertAligned_ok (aligned_add 26 (aligned_of_dvd (al' := 16) ha (by decide)) (by decide))
  have a16_28 := assertAligned_ok (aligned_add 28 (aligned_of_dvd (al' := 16) ha (by decide)) (by decide))
  have a16_30 := assertAligned_ok (aligned_add 30 (aligned_of_dvd (al' := 16) ha (by decide)) (by decide))
  have a32_0 := assertAligned_ok (aligned_of_dvd (al' := 32) ha (by decide))
  have a32_4 := assertAligned_ok (aligned_add 4 (aligned_of_dvd (al' := 32) ha (by decide)) (by decide))
  have a32_8 := assertAligned_ok (aligned_add 8 (aligned_of_dvd (al' := 32) ha (by decide)) (by decide))
  have a32_12 := assertAligned_ok (aligned_add 12 (aligned_of_dvd (al' := 32) ha (by decide)) (by decide))
  have a32_16 := assertAligned_ok (aligned_add 16 (aligned_of_dvd (al' := 32) ha (by decide)) (by decide))
  have a32_20 := assertAligned_ok (aligned_add 20 (aligned_of_dvd (al' := 32) ha (by decide)) (by decide))
  have a32_24 := assertAligned_ok (aligned_add 24 (aligned_of_dvd (al' := 32) ha (by decide)) (by decide))
  have a32_28 := assertAligned_ok (aligned_add 28 (aligned_of_dvd (al' := 32) ha (by decide)) (by decide))
  have a64_0 := assertAligned_ok (aligned_of_dvd (al' := 64) ha (by decide))
  have a64_8 := assertAligned_ok (aligned_add 8 (aligned_of_dvd (al' := 64) ha (by decide)) (by decide))
  have a64_16 := assertAligned_ok (aligned_add 16 (aligned_of_dvd (al' := 64) ha (by decide)) (by decide))
  have a64_24 := assertAligned_ok (aligned_add 24 (aligned_of_dvd (al' := 64) ha (by decide)) (by decide))
  change _ = some (st p [v.val0.x0.x0.x0, v.val0.x0.x0.x1, v.val0.x0.x1.x0, v.val0.x0.x1.x1, v.val0.x1.x0.x0, v.val0.x1.x0.x1,
      v.val0.x1.x1.x0, v.val0.x1.x1.x1, v.val1.x0.x0.x0, v.val1.x0.x0.x1, v.val1.x0.x1.x0, v.val1.x0.x1.x1, v.val1.x1.x0.x0,
      v.val1.x1.x0.x1, v.val1.x1.x1.x0, v.val1.x1.x1.x1, v.val2.x0.x0.x0, v.val2.x0.x0.x1, v.val2.x0.x1.x0, v.val2.x0.x1.x1,
      v.val2.x1.x0.x0, v.val2.x1.x0.x1, v.val2.x1.x1.x0, v.val2.x1.x1.x1, v.val3.x0.x0.x0, v.val3.x0.x0.x1, v.val3.x0.x1.x0,
      v.val3.x0.x1.x1, v.val3.x1.x0.x0, v.val3.x1.x0.x1, v.val3.x1.x1.x0, v.val3.x1.x1.x1])
  simp only [store_nt, store, _mm_storeu_ps, _mm_store_ps, _mm_stream_ps, _mm_store_ss, _mm_storeu_pd, _mm_store_pd,
      _mm_stream_pd, _mm_storel_pd, _mm_storeh_pd, _mm_storeu_si128, _mm_store_si128, _mm_stream_si128, _mm256_storeu_ps,
      _mm256_store_ps, _mm256_stream_ps, _mm256_storeu_pd, _mm256_store_pd, _mm256_stream_pd, _mm256_storeu_si256,
      _mm256_store_si256, _mm256_stream_si256, _mm512_storeu_ps, _mm512_store_ps, _mm512_stream_ps, _mm512_storenr_ps,
      _mm512_storeu_pd, _mm512_store_pd, _mm512_stream_pd, _mm512_storenr_pd, _mm512_storeu_si512, _mm512_store_epi32,
      _mm512_stream_si512, vst1q_f32, vec_sta, st, lanes4, lanes2, lanes24, lanes22, lanes224, lanes222, List.cons_append,
      List.nil_append, List.append_nil, bind, Option.bind, Int.add_assoc, Int.reduceAdd, Int.add_zero, a16_0, a16_2, a16_4,
      a16_6, a16_8, a16_10, a16_12, a16_14, a16_16, a16_18, a16_20, a16_22, a16_24, a16_26, a16_28, a16_30, a32_0, a32_4, a32_8,
      a32_12, a32_16, a32_20, a32_24, a32_28, a64_0, a64_8, a64_16, a64_24]

theorem opStore_law (E : FEnv) : StoreLaw 32 V.lanes (fun v p => opStore E p v) 1 :=
  by
  intro m v p ha h
  obtain ⟨ws, m', h1, h2⟩ := store_law E m v p ha h
  exact ⟨ws, m', bindS h1 rfl, h2⟩

theorem gather_law (E : FEnv) (v : V) : GatherLaw 32 V.lanes (fun m mo p o => gather E m mo v p o) 1 true :=
  by
  intro m mo p o off g ha hn ho hg
  have ho := at32 ho
  have hg := all32 hg
  exact ⟨_, by simp only [gather, _mm_loadu_ps, _mm_load_ps, _mm_loadu_pd, _mm_load_pd, _mm_loadu_si128, _mm_load_si128,
      _mm_load_ss, _mm_loadl_pd, _mm_loadh_pd, _mm256_loadu_ps, _mm256_load_ps, _mm256_loadu_pd, _mm256_load_pd,
      _mm256_loadu_si256, _mm256_load_si256, _mm512_loadu_ps, _mm512_load_ps, _mm512_loadu_pd, _mm512_load_pd,
      _mm512_loadu_si512, _mm512_load_epi32, vld1q_f32, vec_lda, ld16, ld8, ld2x, ld4, ld2, gath4, gath2x, _mm256_i32gather_ps,
      _mm256_i32gather_epi32, _mm256_i32gather_pd, _mm512_i32gather_ps, _mm512_i32gather_epi32, _mm512_i32gather_pd,
      _mm512_i32logather_pd, _mm512_permute4f128_epi32, SHORTVEC_INSERT_PS_AVX, SHORTVEC_INSERT_PS, gaddr44, gaddr88, bind,
      Option.bind, Int.add_assoc, Int.reduceAdd, Int.add_zero, ho, hg] <;> rfl, rfl⟩

theorem scatter_law (E : FEnv) : ScatterLaw 32 V.lanes (fun mo v p o => scatter E mo v p o) 1 :=
  by
  intro mo v p o off ha ho
  have ho := at32 ho
  simp only [scatter, _mm_loadu_ps, _mm_load_ps, _mm_loadu_pd, _mm_load_pd, _mm_loadu_si128, _mm_load_si128, _mm_load_ss,
      _mm_loadl_pd, _mm_loadh_pd, _mm256_loadu_ps, _mm256_load_ps, _mm256_loadu_pd, _mm256_load_pd, _mm256_loadu_si256,
      _mm256_load_si256, _mm512_loadu_ps, _mm512_load_ps, _mm512_loadu_pd, _mm512_load_pd, _mm512_loadu_si512,
      _mm512_load_epi32, vld1q_f32, vec_lda, ld16, ld8, ld2x, ld4, ld2, _mm_storeu_ps, _mm_store_ps, _mm_stream_ps,
      _mm_store_ss, _mm_storeu_pd, _mm_store_pd, _mm_stream_pd, _mm_storel_pd, _mm_storeh_pd, _mm_storeu_si128, _mm_store_si128,
      _mm_stream_si128, _mm256_storeu_ps, _mm256_store_ps, _mm256_stream_ps, _mm256_storeu_pd, _mm256_store_pd,
      _mm256_stream_pd, _mm256_storeu_si256, _mm256_store_si256, _mm256_stream_si256, _mm512_storeu_ps, _mm512_store_ps,
      _mm512_stream_ps, _mm512_storenr_ps, _mm512_storeu_pd, _mm512_store_pd, _mm512_stream_pd, _mm512_storenr_pd,
      _mm512_storeu_si512, _mm512_store_epi32, _mm512_stream_si512, vst1q_f32, vec_sta, st, lanes4, lanes2, lanes24, lanes22,
      lanes224, lanes222, List.cons_append, List.nil_append, List.append_nil, scat, _mm512_i32scatter_ps,
      _mm512_i32scatter_epi32, _mm512_i32scatter_pd, _mm512_i32loscatter_pd, _mm512_permute4f128_epi32, bind, Option.bind,
      Int.add_assoc, Int.reduceAdd, Int.add_zero, ho, List.zipWith, gaddr44, gaddr88]
  rfl

theorem print_law (E : FEnv) : PrintLaw V.lanes (print E) :=
  fun _ => rfl

theorem opLt_law (E : FEnv) : CmpLaw V.lanes (MaskKind.bits 32 : MaskKind V (BitVec 32)) (fun a b => opLt E a b) E.f64.lt :=
  by
  intro a b
  refine ⟨(ofBools 32 [E.f64.lt a.val0.x0.x0.x0 b.val0.x0.x0.x0, E.f64.lt a.val0.x0.x0.x1 b.val0.x0.x0.x1, E.f64.lt
      a.val0.x0.x1.x0 b.val0.x0.x1.x0, E.f64.lt a.val0.x0.x1.x1 b.val0.x0.x1.x1, E.f64.lt a.val0.x1.x0.x0 b.val0.x1.x0.x0,
      E.f64.lt a.val0.x1.x0.x1 b.val0.x1.x0.x1, E.f64.lt a.val0.x1.x1.x0 b.val0.x1.x1.x0, E.f64.lt a.val0.x1.x1.x1
      b.val0.x1.x1.x1, E.f64.lt a.val1.x0.x0.x0 b.val1.x0.x0.x0, E.f64.lt a.val1.x0.x0.x1 b.val1.x0.x0.x1, E.f64.lt
      a.val1.x0.x1.x0 b.val1.x0.x1.x0, E.f64.lt a.val1.x0.x1.x1 b.val1.x0.x1.x1, E.f64.lt a.val1.x1.x0.x0 b.val1.x1.x0.x0,
      E.f64.lt a.val1.x1.x0.x1 b.val1.x1.x0.x1, E.f64.lt a.val1.x1.x1.x0 b.val1.x1.x1.x0, E.f64.lt a.val1.x1.x1.x1
      b.val1.x1.x1.x1, E.f64.lt a.val2.x0.x0.x0 b.val2.x0.x0.x0, E.f64.lt a.val2.x0.x0.x1 b.val2.x0.x0.x1, E.f64.lt
      a.val2.x0.x1.x0 b.val2.x0.x1.x0, E.f64.lt a.val2.x0.x1.x1 b.val2.x0.x1.x1, E.f64.lt a.val2.x1.x0.x0 b.val2.x1.x0.x0,
      E.f64.lt a.val2.x1.x0.x1 b.val2.x1.x0.x1, E.f64.lt a.val2.x1.x1.x0 b.val2.x1.x1.x0, E.f64.lt a.val2.x1.x1.x1
      b.val2.x1.x1.x1, E.f64.lt a.val3.x0.x0.x0 b.val3.x0.x0.x0, E.f64.lt a.val3.x0.x0.x1 b.val3.x0.x0.x1, E.f64.lt
      a.val3.x0.x1.x0 b.val3.x0.x1.x0, E.f64.lt a.val3.x0.x1.x1 b.val3.x0.x1.x1, E.f64.lt a.val3.x1.x0.x0 b.val3.x1.x0.x0,
      E.f64.lt a.val3.x1.x0.x1 b.val3.x1.x0.x1, E.f64.lt a.val3.x1.x1.x0 b.val3.x1.x1.x0, E.f64.lt a.val3.x1.x1.x1
      b.val3.x1.x1.x1]), ?_, Nat.le_of_ble_eq_true rfl, fun i => ofBools_getLsbD _ _ (Nat.le_of_ble_eq_true rfl) i⟩
  have p0 : promote (_mm512_cmp_pd_mask E a.val0 b.val0 _CMP_LT_OS) <<< 0 = ofBools 32 [E.f64.lt a.val0.x0.x0.x0
      b.val0.x0.x0.x0, E.f64.lt a.val0.x0.x0.x1 b.val0.x0.x0.x1, E.f64.lt a.val0.x0.x1.x0 b.val0.x0.x1.x0, E.f64.lt
      a.val0.x0.x1.x1 b.val0.x0.x1.x1, E.f64.lt a.val0.x1.x0.x0 b.val0.x1.x0.x0, E.f64.lt a.val0.x1.x0.x1 b.val0.x1.x0.x1,
      E.f64.lt a.val0.x1.x1.x0 b.val0.x1.x1.x0, E.f64.lt a.val0.x1.x1.x1 b.val0.x1.x1.x1] := by
    rw [BitVec.shiftLeft_zero]; exact promote_ofBools _ (Nat.le_of_ble_eq_true rfl) (by decide)
  dsimp only [opLt]
  rw [p0]
  exact bindS (maskJoin 8 [E.f64.lt a.val0.x0.x0.x0 b.val0.x0.x0.x0, E.f64.lt a.val0.x0.x0.x1 b.val0.x0.x0.x1, E.f64.lt
      a.val0.x0.x1.x0 b.val0.x0.x1.x0, E.f64.lt a.val0.x0.x1.x1 b.val0.x0.x1.x1, E.f64.lt a.val0.x1.x0.x0 b.val0.x1.x0.x0,
      E.f64.lt a.val0.x1.x0.x1 b.val0.x1.x0.x1, E.f64.lt a.val0.x1.x1.x0 b.val0.x1.x1.x0, E.f64.lt a.val0.x1.x1.x1
      b.val0.x1.x1.x1] [E.f64.lt a.val1.x0.x0.x0 b.val1.x0.x0.x0, E.f64.lt a.val1.x0.x0.x1 b.val1.x0.x0.x1, E.f64.lt
      a.val1.x0.x1.x0 b.val1.x0.x1.x0, E.f64.lt a.val1.x0.x1.x1 b.val1.x0.x1.x1, E.f64.lt a.val1.x1.x0.x0 b.val1.x1.x0.x0,
      E.f64.lt a.val1.x1.x0.x1 b.val1.x1.x0.x1, E.f64.lt a.val1.x1.x1.x0 b.val1.x1.x1.x0, E.f64.lt a.val1.x1.x1.x1
      b.val1.x1.x1.x1] (Nat.le_of_ble_eq_true rfl) (by decide) (Nat.le_of_ble_eq_true rfl) (Nat.le_of_ble_eq_true rfl)) <| bindS
      (maskJoin 8 [E.f64.lt a.val0.x0.x0.x0 b.val0.x0.x0.x0, E.f64.lt a.val0.x0.x0.x1 b.val0.x0.x0.x1, E.f64.lt a.val0.x0.x1.x0
      b.val0.x0.x1.x0, E.f64.lt a.val0.x0.x1.x1 b.val0.x0.x1.x1, E.f64.lt a.val0.x1.x0.x0 b.val0.x1.x0.x0, E.f64.lt
      a.val0.x1.x0.x1 b.val0.x1.x0.x1, E.f64.lt a.val0.x1.x1.x0 b.val0.x1.x1.x0, E.f64.lt a.val0.x1.x1.x1 b.val0.x1.x1.x1,
      E.f64.lt a.val1.x0.x0.x0 b.val1.x0.x0.x0, E.f64.lt a.val1.x0.x0.x1 b.val1.x0.x0.x1, E.f64.lt a.val1.x0.x1.x0
      b.val1.x0.x1.x0, E.f64.lt a.val1.x0.x1.x1 b.val1.x0.x1.x1, E.f64.lt a.val1.x1.x0.x0 b.val1.x1.x0.x0, E.f64.lt
      a.val1.x1.x0.x1 b.val1.x1.x0.x1, E.f64.lt a.val1.x1.x1.x0 b.val1.x1.x1.x0, E.f64.lt a.val1.x1.x1.x1 b.val1.x1.x1.x1]
      [E.f64.lt a.val2.x0.x0.x0 b.val2.x0.x0.x0, E.f64.lt a.val2.x0.x0.x1 b.val2.x0.x0.x1, E.f64.lt a.val2.x0.x1.x0
      b.val2.x0.x1.x0, E.f64.lt a.val2.x0.x1.x1 b.val2.x0.x1.x1, E.f64.lt a.val2.x1.x0.x0 b.val2.x1.x0.x0, E.f64.lt
      a.val2.x1.x0.x1 b.val2.x1.x0.x1, E.f64.lt a.val2.x1.x1.x0 b.val2.x1.x1.x0, E.f64.lt a.val2.x1.x1.x1 b.val2.x1.x1.x1]
      (Nat.le_of_ble_eq_true rfl) (by decide) (Nat.le_of_ble_eq_true rfl) (Nat.le_of_ble_eq_true rfl)) <| bindS (maskJoin 8
      [E.f64.lt a.val0.x0.x0.x0 b.val0.x0.x0.x0, E.f64.lt a.val0.x0.x0.x1 b.val0.x0.x0.x1, E.f64.lt a.val0.x0.x1.x0
      b.val0.x0.x1.x0, E.f64.lt a.val0.x0.x1.x1 b.val0.x0.x1.x1, E.f64.lt a.val0.x1.x0.x0 b.val0.x1.x0.x0, E.f64.lt
      a.val0.x1.x0.x1 b.val0.x1.x0.x1, E.f64.lt a.val0.x1.x1.x0 b.val0.x1.x1.x0, E.f64.lt a.val0.x1.x1.x1 b.val0.x1.x1.x1,
      E.f64.lt a.val1.x0.x0.x0 b.val1.x0.x0.x0, E.f64.lt a.val1.x0.x0.x1 b.val1.x0.x0.x1, E.f64.lt a.val1.x0.x1.x0
      b.val1.x0.x1.x0, E.f64.lt a.val1.x0.x1.x1 b.val1.x0.x1.x1, E.f64.lt a.val1.x1.x0.x0 b.val1.x1.x0.x0, E.f64.lt
      a.val1.x1.x0.x1 b.val1.x1.x0.x1, E.f64.lt a.val1.x1.x1.x0 b.val1.x1.x1.x0, E.f64.lt a.val1.x1.x1.x1 b.val1.x1.x1.x1,
      E.f64.lt a.val2.x0.x0.x0 b.val2.x0.x0.x0, E.f64.lt a.val2.x0.x0.x1 b.val2.x0.x0.x1, E.f64.lt a.val2.x0.x1.x0
      b.val2.x0.x1.x0, E.f64.lt a.val2.x0.x1.x1 b.val2.x0.x1.x1, E.f64.lt a.val2.x1.x0.x0 b.val2.x1.x0.x0, E.f64.lt
      a.val2.x1.x0.x1 b.val2.x1.x0.x1, E.f64.lt a.val2.x1.x1.x0 b.val2.x1.x1.x0, E.f64.lt a.val2.x1.x1.x1 b.val2.x1.x1.x1]
      [E.f64.lt a.val3.x0.x0.x0 b.val3.x0.x0.x0, E.f64.lt a.val3.x0.x0.x1 b.val3.x0.x0.x1, E.f64.lt a.val3.x0.x1.x0
      b.val3.x0.x1.x0, E.f64.lt a.val3.x0.x1.x1 b.val3.x0.x1.x1, E.f64.lt a.val3.x1.x0.x0 b.val3.x1.x0.x0, E.f64.lt
      a.val3.x1.x0.x1 b.val3.x1.x0.x1, E.f64.lt a.val3.x1.x1.x0 b.val3.x1.x1.x0, E.f64.lt a.val3.x1.x1.x1 b.val3.x1.x1.x1]
      (Nat.le_of_ble_eq_true rfl) (by decide) (Nat.le_of_ble_eq_true rfl) (Nat.le_of_ble_eq_true rfl)) <| rfl

theorem opLe_law (E : FEnv) : CmpLaw V.lanes (MaskKind.bits 32 : MaskKind V (BitVec 32)) (fun a b => opLe E a b) E.f64.le :=
  by
  intro a b
  refine ⟨(ofBools 32 [E.f64.le a.val0.x0.x0.x0 b.val0.x0.x0.x0, E.f64.le a.val0.x0.x0.x1 b.val0.x0.x0.x1, E.f64.le
      a.val0.x0.x1.x0 b.val0.x0.x1.x0, E.f64.le a.val0.x0.x1.x1 b.val0.x0.x1.x1, E.f64.le a.val0.x1.x0.x0 b.val0.x1.x0.x0,
      E.f64.le a.val0.x1.x0.x1 b.val0.x1.x0.x1, E.f64.le a.val0.x1.x1.x0 b.val0.x1.x1.x0, E.f64.le a.val0.x1.x1.x1
      b.val0.x1.x1.x1, E.f64.le a.val1.x0.x0.x0 b.val1.x0.x0.x0, E.f64.le a.val1.x0.x0.x1 b.val1.x0.x0.x1, E.f64.le
      a.val1.x0.x1.x0 b.val1.x0.x1.x0, E.f64.le a.val1.x0.x1.x1 b.val1.x0.x1.x1, E.f64.le a.val1.x1.x0.x0 b.val1.x1.x0.x0,
      E.f64.le a.val1.x1.x0.x1 b.val1.x1.x0.x1, E.f64.le a.val1.x1.x1.x0 b.val1.x1.x1.x0, E.f64.le a.val1.x1.x1.x1
      b.val1.x1.x1.x1, E.f64.le a.val2.x0.x0.x0 b.val2.x0.x0.x0, E.f64.le a.val2.x0.x0.x1 b.val2.x0.x0.x1, E.f64.le
      a.val2.x0.x1.x0 b.val2.x0.x1.x0, E.f64.le a.val2.x0.x1.x1 b.val2.x0.x1.x1, E.f64.le a.val2.x1.x0.x0 b.val2.x1.x0.x0,
      E.f64.le a.val2.x1.x0.x1 b.val2.x1.x0.x1, E.f64.le a.val2.x1.x1.x0 b.val2.x1.x1.x0, E.f64.le a.val2.x1.x1.x1
      b.val2.x1.x1.x1, E.f64.le a.val3.x0.x0.x0 b.val3.x0.x0.x0, E.f64.le a.val3.x0.x0.x1 b.val3.x0.x0.x1, E.f64.le
      a.val3.x0.x1.x0 b.val3.x0.x1.x0, E.f64.le a.val3.x0.x1.x1 b.val3.x0.x1.x1, E.f64.le a.val3.x1.x0.x0 b.val3.x1.x0.x0,
      E.f64.le a.val3.x1.x0.x1 b.val3.x1.x0.x1, E.f64.le a.val3.x1.x1.x0 b.val3.x1.x1.x0, E.f64.le a.val3.x1.x1.x1
      b.val3.x1.x1.x1]), ?_, Nat.le_of_ble_eq_true rfl, fun i => ofBools_getLsbD _ _ (Nat.le_of_ble_eq_true rfl) i⟩
  have p0 : promote (_mm512_cmp_pd_mask E a.val0 b.val0 _CMP_LE_OS) <<< 0 = ofBools 32 [E.f64.le a.val0.x0.x0.x0
      b.val0.x0.x0.x0, E.f64.le a.val0.x0.x0.x1 b.val0.x0.x0.x1, E.f64.le a.val0.x0.x1.x0 b.val0.x0.x1.x0, E.f64.le
      a.val0.x0.x1.x1 b.val0.x0.x1.x1, E.f64.le a.val0.x1.x0.x0 b.val0.x1.x0.x0, E.f64.le a.val0.x1.x0.x1 b.val0.x1.x0.x1,
      E.f64.le a.val0.x1.x1.x0 b.val0.x1.x1.x0, E.f64.le a.val0.x1.x1.x1 b.val0.x1.x1.x1] := by
    rw [BitVec.shiftLeft_zero]; exact promote_ofBools _ (Nat.le_of_ble_eq_true rfl) (by decide)
  dsimp only [opLe]
  rw [p0]
  exact bindS (maskJoin 8 [E.f64.le a.val0.x0.x0.x0 b.val0.x0.x0.x0, E.f64.le a.val0.x0.x0.x1 b.val0.x0.x0.x1, E.f64.le
      a.val0.x0.x1.x0 b.val0.x0.x1.x0, E.f64.le a.val0.x0.x1.x1 b.val0.x0.x1.x1, E.f64.le a.val0.x1.x0.x0 b.val0.x1.x0.x0,
      E.f64.le a.val0.x1.x0.x1 b.val0.x1.x0.x1, E.f64.le a.val0.x1.x1.x0 b.val0.x1.x1.x0, E.f64.le a.val0.x1.x1.x1
      b.val0.x1.x1.x1] [E.f64.le a.val1.x0.x0.x0 b.val1.x0.x0.x0, E.f64.le a.val1.x0.x0.x1 b.val1.x0.x0.x1, E.f64.le
      a.val1.x0.x1.x0 b.val1.x0.x1.x0, E.f64.le a.val1.x0.x1.x1 b.val1.x0.x1.x1, E.f64.le a.val1.x1.x0.x0 b.val1.x1.x0.x0,
      E.f64.le a.val1.x1.x0.x1 b.val1.x1.x0.x1, E.f64.le a.val1.x1.x1.x0 b.val1.x1.x1.x0, E.f64.le a.val1.x1.x1.x1
      b.val1.x1.x1.x1] (Nat.le_of_ble_eq_true rfl) (by decide) (Nat.le_of_ble_eq_true rfl) (Nat.le_of_ble_eq_true rfl)) <| bindS
      (maskJoin 8 [E.f64.le a.val0.x0.x0.x0 b.val0.x0.x0.x0, E.f64.le a.val0.x0.x0.x1 b.val0.x0.x0.x1, E.f64.le a.val0.x0.x1.x0
      b.val0.x0.x1.x0, E.f64.le a.val0.x0.x1.x1 b.val0.x0.x1.x1, E.f64.le a.val0.x1.x0.x0 b.val0.x1.x0.x0, E.f64.le
      a.val0.x1.x0.x1 b.val0.x1.x0.x1, E.f64.le a.val0.x1.x1.x0 b.val0.x1.x1.x0, E.f64.le a.val0.x1.x1.x1 b.val0.x1.x1.x1,
      E.f64.le a.val1.x0.x0.x0 b.val1.x0.x0.x0, E.f64.le a.val1.x0.x0.x1 b.val1.x0.x0.x1, E.f64.le a.val1.x0.x1.x0
      b.val1.x0.x1.x0, E.f64.le a.val1.x0.x1.x1 b.val1.x0.x1.x1, E.f64.le a.val1.x1.x0.x0 b.val1.x1.x0.x0, E.f64.le
      a.val1.x1.x0.x1 b.val1.x1.x0.x1, E.f64.le a.val1.x1.x1.x0 b.val1.x1.x1.x0, E.f64.le a.val1.x1.x1.x1 b.val1.x1.x1.x1]
      [E.f64.le a.val2.x0.x0.x0 b.val2.x0.x0.x0, E.f64.le a.val2.x0.x0.x1 b.val2.x0.x0.x1, E.f64.le a.val2.x0.x1.x0
      b.val2.x0.x1.x0, E.f64.le a.val2.x0.x1.x1 b.val2.x0.x1.x1, E.f64.le a.val2.x1.x0.x0 b.val2.x1.x0.x0, E.f64.le
      a.val2.x1.x0.x1 b.val2.x1.x0.x1, E.f64.le a.val2.x1.x1.x0 b.val2.x1.x1.x0, E.f64.le a.val2.x1.x1.x1 b.val2.x1.x1.x1]
      (Nat.le_of_ble_eq_true rfl) (by decide) (Nat.le_of_ble_eq_true rfl) (Nat.le_of_ble_eq_true rfl)) <| bindS (maskJoin 8
      [E.f64.le a.val0.x0.x0.x0 b.val0.x0.x0.x0, E.f64.le a.val0.x0.x0.x1 b.val0.x0.x0.x1, E.f64.le a.val0.x0.x1.x0
      b.val0.x0.x1.x0, E.f64.le a.val0.x0.x1.x1 b.val0.x0.x1.x1, E.f64.le a.val0.x1.x0.x0 b.val0.x1.x0.x0, E.f64.le
      a.val0.x1.x0.x1 b.val0.x1.x0.x1, E.f64.le a.val0.x1.x1.x0 b.val0.x1.x1.x0, E.f64.le a.val0.x1.x1.x1 b.val0.x1.x1.x1,
      E.f64.le a.val1.x0.x0.x0 b.val1.x0.x0.x0, E.f64.le a.val1.x0.x0.x1 b.val1.x0.x0.x1, E.f64.le a.val1.x0.x1.x0
      b.val1.x0.x1.x0, E.f64.le a.val1.x0.x1.x1 b.val1.x0.x1.x1, E.f64.le a.val1.x1.x0.x0 b.val1.x1.x0.x0, E.f64.le
      a.val1.x1.x0.x1 b.val1.x1.x0.x1, E.f64.le a.val1.x1.x1.x0 b.val1.x1.x1.x0, E.f64.le a.val1.x1.x1.x1 b.val1.x1.x1.x1,
      E.f64.le a.val2.x0.x0.x0 b.val2.x0.x0.x0, E.f64.le a.val2.x0.x0.x1 b.val2.x0.x0.x1, E.f64.le a.val2.x0.x1.x0
      b.val2.x0.x1.x0, E.f64.le a.val2.x0.x1.x1 b.val2.x0.x1.x1, E.f64.le a.val2.x1.x0.x0 b.val2.x1.x0.x0, E.f64.le
      a.val2.x1.x0.x1 b.val2.x1.x0.x1, E.f64.le a.val2.x1.x1.x0 b.val2.x1.x1.x0, E.f64.le a.val2.x1.x1.x1 b.val2.x1.x1.x1]
      [E.f64.le a.val3.x0.x0.x0 b.val3.x0.x0.x0, E.f64.le a.val3.x0.x0.x1 b.val3.x0.x0.x1, E.f64.le a.val3.x0.x1.x0
      b.val3.x0.x1.x0, E.f64.le a.val3.x0.x1.x1 b.val3.x0.x1.x1, E.f64.le a.val3.x1.x0.x0 b.val3.x1.x0.x0, E.f64.le
      a.val3.x1.x0.x1 b.val3.x1.x0.x1, E.f64.le a.val3.x1.x1.x0 b.val3.x1.x1.x0, E.f64.le a.val3.x1.x1.x1 b.val3.x1.x1.x1]
      (Nat.le_of_ble_eq_true rfl) (by decide) (Nat.le_of_ble_eq_true rfl) (Nat.le_of_ble_eq_true rfl)) <| rfl

theorem opEq_law (E : FEnv) : CmpLaw V.lanes (MaskKind.bits 32 : MaskKind V (BitVec 32)) (fun a b => opEq E a b) E.f64.eq :=
  by
  intro a b
  refine ⟨(ofBools 32 [E.f64.eq a.val0.x0.x0.x0 b.val0.x0.x0.x0, E.f64.eq a.val0.x0.x0.x1 b.val0.x0.x0.x1, E.f64.eq
      a.val0.x0.x1.x0 b.val0.x0.x1.x0, E.f64.eq a.val0.x0.x1.x1 b.val0.x0.x1.x1, E.f64.eq a.val0.x1.x0.x0 b.val0.x1.x0.x0,
      E.f64.eq a.val0.x1.x0.x1 b.val0.x1.x0.x1, E.f64.eq a.val0.x1.x1.x0 b.val0.x1.x1.x0, E.f64.eq a.val0.x1.x1.x1
      b.val0.x1.x1.x1, E.f64.eq a.val1.x0.x0.x0 b.val1.x0.x0.x0, E.f64.eq a.val1.x0.x0.x1 b.val1.x0.x0.x1, E.f64.eq
      a.val1.x0.x1.x0 b.val1.x0.x1.x0, E.f64.eq a.val1.x0.x1.x1 b.val1.x0.x1.x1, E.f64.eq a.val1.x1.x0.x0 b.val1.x1.x0.x0,
      E.f64.eq a.val1.x1.x0.x1 b.val1.x1.x0.x1, E.f64.eq a.val1.x1.x1.x0 b.val1.x1.x1.x0, E.f64.eq a.val1.x1.x1.x1
      b.val1.x1.x1.x1, E.f64.eq a.val2.x0.x0.x0 b.val2.x0.x0.x0, E.f64.eq a.val2.x0.x0.x1 b.val2.x0.x0.x1, E.f64.eq
      a.val2.x0.x1.x0 b.val2.x0.x1.x0, E.f64.eq a.val2.x0.x1.x1 b.val2.x0.x1.x1, E.f64.eq a.val2.x1.x0.x0 b.val2.x1.x0.x0,
      E.f64.eq a.val2.x1.x0.x1 b.val2.x1.x0.x1, E.f64.eq a.val2.x1.x1.x0 b.val2.x1.x1.x0, E.f64.eq a.val2.x1.x1.x1
      b.val2.x1.x1.x1, E.f64.eq a.val3.x0.x0.x0 b.val3.x0.x0.x0, E.f64.eq a.val3.x0.x0.x1 b.val3.x0.x0.x1, E.f64.eq
      a.val3.x0.x1.x0 b.val3.x0.x1.x0, E.f64.eq a.val3.x0.x1.x1 b.val3.x0.x1.x1, E.f64.eq a.val3.x1.x0.x0 b.val3.x1.x0.x0,
      E.f64.eq a.val3.x1.x0.x1 b.val3.x1.x0.x1, E.f64.eq a.val3.x1.x1.x0 b.val3.x1.x1.x0, E.f64.eq a.val3.x1.x1.x1
      b.val3.x1.x1.x1]), ?_, Nat.le_of_ble_eq_true rfl, fun i => ofBools_getLsbD _ _ (Nat.le_of_ble_eq_true rfl) i⟩
  have p0 : promote (_mm512_cmp_pd_mask E a.val0 b.val0 _CMP_EQ_OQ) <<< 0 = ofBools 32 [E.f64.eq a.val0.x0.x0.x0
      b.val0.x0.x0.x0, E.f64.eq a.val0.x0.x0.x1 b.val0.x0.x0.x1, E.f64.eq a.val0.x0.x1.x0 b.val0.x0.x1.x0, E.f64.eq
      a.val0.x0.x1.x1 b.val0.x0.x1.x1, E.f64.eq a.val0.x1.x0.x0 b.val0.x1.x0.x0, E.f64.eq a.val0.x1.x0.x1 b.val0.x1.x0.x1,
      E.f64.eq a.val0.x1.x1.x0 b.val0.x1.x1.x0, E.f64.eq a.val0.x1.x1.x1 b.val0.x1.x1.x1] := by
    rw [BitVec.shiftLeft_zero]; exact promote_ofBools _ (Nat.le_of_ble_eq_true rfl) (by decide)
  dsimp only [opEq]
  rw [p0]
  exact bindS (maskJoin 8 [E.f64.eq a.val0.x0.x0.x0 b.val0.x0.x0.x0, E.f64.eq a.val0.x0.x0.x1 b.val0.x0.x0.x1, E.f64.eq
      a.val0.x0.x1.x0 b.val0.x0.x1.x0, E.f64.eq a.val0.x0.x1.x1 b.val0.x0.x1.x1, E.f64.eq a.val0.x1.x0.x0 b.val0.x1.x0.x0,
      E.f64.eq a.val0.x1.x0.x1 b.val0.x1.x0.x1, E.f64.eq a.val0.x1.x1.x0 b.val0.x1.x1.x0, E.f64.eq a.val0.x1.x1.x1
      b.val0.x1.x1.x1] [E.f64.eq a.val1.x0.x0.x0 b.val1.x0.x0.x0, E.f64.eq a.val1.x0.x0.x1 b.val1.x0.x0.x1, E.f64.eq
      a.val1.x0.x1.x0 b.val1.x0.x1.x0, E.f64.eq a.val1.x0.x1.x1 b.val1.x0.x1.x1, E.f64.eq a.val1.x1.x0.x0 b.val1.x1.x0.x0,
      E.f64.eq a.val1.x1.x0.x1 b.val1.x1.x0.x1, E.f64.eq a.val1.x1.x1.x0 b.val1.x1.x1.x0, E.f64.eq a.val1.x1.x1.x1
      b.val1.x1.x1.x1] (Nat.le_of_ble_eq_true rfl) (by decide) (Nat.le_of_ble_eq_true rfl) (Nat.le_of_ble_eq_true rfl)) <| bindS
      (maskJoin 8 [E.f64.eq a.val0.x0.x0.x0 b.val0.x0.x0.x0, E.f64.eq a.val0.x0.x0.x1 b.val0.x0.x0.x1, E.f64.eq a.val0.x0.x1.x0
      b.val0.x0.x1.x0, E.f64.eq a.val0.x0.x1.x1 b.val0.x0.x1.x1, E.f64.eq a.val0.x1.x0.x0 b.val0.x1.x0.x0, E.f64.eq
      a.val0.x1.x0.x1 b.val0.x1.x0.x1, E.f64.eq a.val0.x1.x1.x0 b.val0.x1.x1.x0, E.f64.eq a.val0.x1.x1.x1 b.val0.x1.x1.x1,
      E.f64.eq a.val1.x0.x0.x0 b.val1.x0.x0.x0, E.f64.eq a.val1.x0.x0.x1 b.val1.x0.x0.x1, E.f64.eq a.val1.x0.x1.x0
      b.val1.x0.x1.x0, E.f64.eq a.val1.x0.x1.x1 b.val1.x0.x1.x1, E.f64.eq a.val1.x1.x0.x0 b.val1.x1.x0.x0, E.f64.eq
      a.val1.x1.x0.x1 b.val1.x1.x0.x1, E.f64.eq a.val1.x1.x1.x0 b.val1.x1.x1.x0, E.f64.eq a.val1.x1.x1.x1 b.val1.x1.x1.x1]
      [E.f64.eq a.val2.x0.x0.x0 b.val2.x0.x0.x0, E.f64.eq a.val2.x0.x0.x1 b.val2.x0.x0.x1, E.f64.eq a.val2.x0.x1.x0
      b.val2.x0.x1.x0, E.f64.eq a.val2.x0.x1.x1 b.val2.x0.x1.x1, E.f64.eq a.val2.x1.x0.x0 b.val2.x1.x0.x0, E.f64.eq
      a.val2.x1.x0.x1 b.val2.x1.x0.x1, E.f64.eq a.val2.x1.x1.x0 b.val2.x1.x1.x0, E.f64.eq a.val2.x1.x1.x1 b.val2.x1.x1.x1]
      (Nat.le_of_ble_eq_true rfl) (by decide) (Nat.le_of_ble_eq_true rfl) (Nat.le_of_ble_eq_true rfl)) <| bindS (maskJoin 8
      [E.f64.eq a.val0.x0.x0.x0 b.val0.x0.x0.x0, E.f64.eq a.val0.x0.x0.x1 b.val0.x0.x0.x1, E.f64.eq a.val0.x0.x1.x0
      b.val0.x0.x1.x0, E.f64.eq a.val0.x0.x1.x1 b.val0.x0.x1.x1, E.f64.eq a.val0.x1.x0.x0 b.val0.x1.x0.x0, E.f64.eq
      a.val0.x1.x0.x1 b.val0.x1.x0.x1, E.f64.eq a.val0.x1.x1.x0 b.val0.x1.x1.x0, E.f64.eq a.val0.x1.x1.x1 b.val0.x1.x1.x1,
      E.f64.eq a.val1.x0.x0.x0 b.val1.x0.x0.x0, E.f64.eq a.val1.x0.x0.x1 b.val1.x0.x0.x1, E.f64.eq a.val1.x0.x1.x0
      b.val1.x0.x1.x0, E.f64.eq a.val1.x0.x1.x1 b.val1.x0.x1.x1, E.f64.eq a.val1.x1.x0.x0 b.val1.x1.x0.x0, E.f64.eq
      a.val1.x1.x0.x1 b.val1.x1.x0.x1, E.f64.eq a.val1.x1.x1.x0 b.val1.x1.x1.x0, E.f64.eq a.val1.x1.x1.x1 b.val1.x1.x1.x1,
      E.f64.eq a.val2.x0.x0.x0 b.val2.x0.x0.x0, E.f64.eq a.val2.x0.x0.x1 b.val2.x0.x0.x1, E.f64.eq a.val2.x0.x1.x0
      b.val2.x0.x1.x0, E.f64.eq a.val2.x0.x1.x1 b.val2.x0.x1.x1, E.f64.eq a.val2.x1.x0.x0 b.val2.x1.x0.x0, E.f64.eq
      a.val2.x1.x0.x1 b.val2.x1.x0.x1, E.f64.eq a.val2.x1.x1.x0 b.val2.x1.x1.x0, E.f64.eq a.val2.x1.x1.x1 b.val2.x1.x1.x1]
      [E.f64.eq a.val3.x0.x0.x0 b.val3.x0.x0.x0, E.f64.eq a.val3.x0.x0.x1 b.val3.x0.x0.x1, E.f64.eq a.val3.x0.x1.x0
      b.val3.x0.x1.x0, E.f64.eq a.val3.x0.x1.x1 b.val3.x0.x1.x1, E.f64.eq a.val3.x1.x0.x0 b.val3.x1.x0.x0, E.f64.eq
      a.val3.x1.x0.x1 b.val3.x1.x0.x1, E.f64.eq a.val3.x1.x1.x0 b.val3.x1.x1.x0, E.f64.eq a.val3.x1.x1.x1 b.val3.x1.x1.x1]
      (Nat.le_of_ble_eq_true rfl) (by decide) (Nat.le_of_ble_eq_true rfl) (Nat.le_of_ble_eq_true rfl)) <| rfl

theorem opGt_law (E : FEnv) : CmpLaw V.lanes (MaskKind.bits 32 : MaskKind V (BitVec 32)) (fun a b => opGt E a b) E.f64.gt :=
  by
  intro a b
  refine ⟨(ofBools 32 [E.f64.gt a.val0.x0.x0.x0 b.val0.x0.x0.x0, E.f64.gt a.val0.x0.x0.x1 b.val0.x0.x0.x1, E.f64.gt
      a.val0.x0.x1.x0 b.val0.x0.x1.x0, E.f64.gt a.val0.x0.x1.x1 b.val0.x0.x1.x1, E.f64.gt a.val0.x1.x0.x0 b.val0.x1.x0.x0,
      E.f64.gt a.val0.x1.x0.x1 b.val0.x1.x0.x1, E.f64.gt a.val0.x1.x1.x0 b.val0.x1.x1.x0, E.f64.gt a.val0.x1.x1.x1
      b.val0.x1.x1.x1, E.f64.gt a.val1.x0.x0.x0 b.val1.x0.x0.x0, E.f64.gt a.val1.x0.x0.x1 b.val1.x0.x0.x1, E.f64.gt
      a.val1.x0.x1.x0 b.val1.x0.x1.x0, E.f64.gt a.val1.x0.x1.x1 b.val1.x0.x1.x1, E.f64.gt a.val1.x1.x0.x0 b.val1.x1.x0.x0,
      E.f64.gt a.val1.x1.x0.x1 b.val1.x1.x0.x1, E.f64.gt a.val1.x1.x1.x0 b.val1.x1.x1.x0, E.f64.gt a.val1.x1.x1.x1
      b.val1.x1.x1.x1, E.f64.gt a.val2.x0.x0.x0 b.val2.x0.x0.x0, E.f64.gt a.val2.x0.x0.x1 b.val2.x0.x0.x1, E.f64.gt
      a.val2.x0.x1.x0 b.val2.x0.x1.x0, E.f64.gt a.val2.x0.x1.x1 b.val2.x0.x1.x1, E.f64.gt a.val2.x1.x0.x0 b.val2.x1.x0.x0,
      E.f64.gt a.val2.x1.x0.x1 b.val2.x1.x0.x1, E.f64.gt a.val2.x1.x1.x0 b.val2.x1.x1.x0, E.f64.gt a.val2.x1.x1.x1
      b.val2.x1.x1.x1, E.f64.gt a.val3.x0.x0.x0 b.val3.x0.x0.x0, E.f64.gt a.val3.x0.x0.x1 b.val3.x0.x0.x1, E.f64.gt
      a.val3.x0.x1.x0 b.val3.x0.x1.x0, E.f64.gt a.val3.x0.x1.x1 b.val3.x0.x1.x1, E.f64.gt a.val3.x1.x0.x0 b.val3.x1.x0.x0,
      E.f64.gt a.val3.x1.x0.x1 b.val3.x1.x0.x1, E.f64.gt a.val3.x1.x1.x0 b.val3.x1.x1.x0, E.f64.gt a.val3.x1.x1.x1
      b.val3.x1.x1.x1]), ?_, Nat.le_of_ble_eq_true rfl, fun i => ofBools_getLsbD _ _ (Nat.le_of_ble_eq_true rfl) i⟩
  have p0 : promote (_mm512_cmp_pd_mask E a.val0 b.val0 _CMP_GT_OS) <<< 0 = ofBools 32 [E.f64.gt a.val0.x0.x0.x0
      b.val0.x0.x0.x0, E.f64.gt a.val0.x0.x0.x1 b.val0.x0.x0.x1, E.f64.gt a.val0.x0.x1.x0 b.val0.x0.x1.x0, E.f64.gt
      a.val0.x0.x1.x1 b.val0.x0.x1.x1, E.f64.gt a.val0.x1.x0.x0 b.val0.x1.x0.x0, E.f64.gt a.val0.x1.x0.x1 b.val0.x1.x0.x1,
      E.f64.gt a.val0.x1.x1.x0 b.val0.x1.x1.x0, E.f64.gt a.val0.x1.x1.x1 b.val0.x1.x1.x1] := by
    rw [BitVec.shiftLeft_zero]; exact promote_ofBools _ (Nat.le_of_ble_eq_true rfl) (by decide)
  dsimp only [opGt]
  rw [p0]
  exact bindS (maskJoin 8 [E.f64.gt a.val0.x0.x0.x0 b.val0.x0.x0.x0, E.f64.gt a.val0.x0.x0.x1 b.val0.x0.x0.x1, E.f64.gt
      a.val0.x0.x1.x0 b.val0.x0.x1.x0, E.f64.gt a.val0.x0.x1.x1 b.val0.x0.x1.x1, E.f64.gt a.val0.x1.x0.x0 b.val0.x1.x0.x0,
      E.f64.gt a.val0.x1.x0.x1 b.val0.x1.x0.x1, E.f64.gt a.val0.x1.x1.x0 b.val0.x1.x1.x0, E.f64.gt a.val0.x1.x1.x1
      b.val0.x1.x1.x1] [E.f64.gt a.val1.x0.x0.x0 b.val1.x0.x0.x0, E.f64.gt a.val1.x0.x0.x1 b.val1.x0.x0.x1, E.f64.gt
      a.val1.x0.x1.x0 b.val1.x0.x1.x0, E.f64.gt a.val1.x0.x1.x1 b.val1.x0.x1.x1, E.f64.gt a.val1.x1.x0.x0 b.val1.x1.x0.x0,
      E.f64.gt a.val1.x1.x0.x1 b.val1.x1.x0.x1, E.f64.gt a.val1.x1.x1.x0 b.val1.x1.x1.x0, E.f64.gt a.val1.x1.x1.x1
      b.val1.x1.x1.x1] (Nat.le_of_ble_eq_true rfl) (by decide) (Nat.le_of_ble_eq_true rfl) (Nat.le_of_ble_eq_true rfl)) <| bindS
      (maskJoin 8 [E.f64.gt a.val0.x0.x0.x0 b.val0.x0.x0.x0, E.f64.gt a.val0.x0.x0.x1 b.val0.x0.x0.x1, E.f64.gt a.val0.x0.x1.x0
      b.val0.x0.x1.x0, E.f64.gt a.val0.x0.x1.x1 b.val0.x0.x1.x1, E.f64.gt a.val0.x1.x0.x0 b.val0.x1.x0.x0, E.f64.gt
      a.val0.x1.x0.x1 b.val0.x1.x0.x1, E.f64.gt a.val0.x1.x1.x0 b.val0.x1.x1.x0, E.f64.gt a.val0.x1.x1.x1 b.val0.x1.x1.x1,
      E.f64.gt a.val1.x0.x0.x0 b.val1.x0.x0.x0, E.f64.gt a.val1.x0.x0.x1 b.val1.x0.x0.x1, E.f64.gt a.val1.x0.x1.x0
      b.val1.x0.x1.x0, E.f64.gt a.val1.x0.x1.x1 b.val1.x0.x1.x1, E.f64.gt a.val1.x1.x0.x0 b.val1.x1.x0.x0, E.f64.gt
      a.val1.x1.x0.x1 b.val1.x1.x0.x1, E.f64.gt a.val1.x1.x1.x0 b.val1.x1.x1.x0, E.f64.gt a.val1.x1.x1.x1 b.val1.x1.x1.x1]
      [E.f64.gt a.val2.x0.x0.x0 b.val2.x0.x0.x0, E.f64.gt a.val2.x0.x0.x1 b.val2.x0.x0.x1, E.f64.gt a.val2.x0.x1.x0
      b.val2.x0.x1.x0, E.f64.gt a.val2.x0.x1.x1 b.val2.x0.x1.x1, E.f64.gt a.val2.x1.x0.x0 b.val2.x1.x0.x0, E.f64.gt
      a.val2.x1.x0.x1 b.val2.x1.x0.x1, E.f64.gt a.val2.x1.x1.x0 b.val2.x1.x1.x0, E.f64.gt a.val2.x1.x1.x1 b.val2.x1.x1.x1]
      (Nat.le_of_ble_eq_true rfl) (by decide) (Nat.le_of_ble_eq_true rfl) (Nat.le_of_ble_eq_true rfl)) <| bindS (maskJoin 8
      [E.f64.gt a.val0.x0.x0.x0 b.val0.x0.x0.x0, E.f64.gt a.val0.x0.x0.x1 b.val0.x0.x0.x1, E.f64.gt a.val0.x0.x1.x0
      b.val0.x0.x1.x0, E.f64.gt a.val0.x0.x1.x1 b.val0.x0.x1.x1, E.f64.gt a.val0.x1.x0.x0 b.val0.x1.x0.x0, E.f64.gt
      a.val0.x1.x0.x1 b.val0.x1.x0.x1, E.f64.gt a.val0.x1.x1.x0 b.val0.x1.x1.x0, E.f64.gt a.val0.x1.x1.x1 b.val0.x1.x1.x1,
      E.f64.gt a.val1.x0.x0.x0 b.val1.x0.x0.x0, E.f64.gt a.val1.x0.x0.x1 b.val1.x0.x0.x1, E.f64.gt a.val1.x0.x1.x0
      b.val1.x0.x1.x0, E.f64.gt a.val1.x0.x1.x1 b.val1.x0.x1.x1, E.f64.gt a.val1.x1.x0.x0 b.val1.x1.x0.x0, E.f64.gt
      a.val1.x1.x0.x1 b.val1.x1.x0.x1, E.f64.gt a.val1.x1.x1.x0 b.val1.x1.x1.x0, E.f64.gt a.val1.x1.x1.x1 b.val1.x1.x1.x1,
      E.f64.gt a.val2.x0.x0.x0 b.val2.x0.x0.x0, E.f64.gt a.val2.x0.x0.x1 b.val2.x0.x0.x1, E.f64.gt a.val2.x0.x1.x0
      b.val2.x0.x1.x0, E.f64.gt a.val2.x0.x1.x1 b.val2.x0.x1.x1, E.f64.gt a.val2.x1.x0.x0 b.val2.x1.x0.x0, E.f64.gt
      a.val2.x1.x0.x1 b.val2.x1.x0.x1, E.f64.gt a.val2.x1.x1.x0 b.val2.x1.x1.x0, E.f64.gt a.val2.x1.x1.x1 b.val2.x1.x1.x1]
      [E.f64.gt a.val3.x0.x0.x0 b.val3.x0.x0.x0, E.f64.gt a.val3.x0.x0.x1 b.val3.x0.x0.x1, E.f64.gt a.val3.x0.x1.x0
      b.val3.x0.x1.x0, E.f64.gt a.val3.x0.x1.x1 b.val3.x0.x1.x1, E.f64.gt a.val3.x1.x0.x0 b.val3.x1.x0.x0, E.f64.gt
      a.val3.x1.x0.x1 b.val3.x1.x0.x1, E.f64.gt a.val3.x1.x1.x0 b.val3.x1.x1.x0, E.f64.gt a.val3.x1.x1.x1 b.val3.x1.x1.x1]
      (Nat.le_of_ble_eq_true rfl) (by decide) (Nat.le_of_ble_eq_true rfl) (Nat.le_of_ble_eq_true rfl)) <| rfl

theorem opGe_law (E : FEnv) : CmpLaw V.lanes (MaskKind.bits 32 : MaskKind V (BitVec 32)) (fun a b => opGe E a b) E.f64.ge :=
  by
  intro a b
  refine ⟨(ofBools 32 [E.f64.ge a.val0.x0.x0.x0 b.val0.x0.x0.x0, E.f64.ge a.val0.x0.x0.x1 b.val0.x0.x0.x1, E.f64.ge
      a.val0.x0.x1.x0 b.val0.x0.x1.x0, E.f64.ge a.val0.x0.x1.x1 b.val0.x0.x1.x1, E.f64.ge a.val0.x1.x0.x0 b.val0.x1.x0.x0,
      E.f64.ge a.val0.x1.x0.x1 b.val0.x1.x0.x1, E.f64.ge a.val0.x1.x1.x0 b.val0.x1.x1.x0, E.f64.ge a.val0.x1.x1.x1
      b.val0.x1.x1.x1, E.f64.ge a.val1.x0.x0.x0 b.val1.x0.x0.x0, E.f64.ge a.val1.x0.x0.x1 b.val1.x0.x0.x1, E.f64.ge
      a.val1.x0.x1.x0 b.val1.x0.x1.x0, E.f64.ge a.val1.x0.x1.x1 b.val1.x0.x1.x1, E.f64.ge a.val1.x1.x0.x0 b.val1.x1.x0.x0,
      E.f64.ge a.val1.x1.x0.x1 b.val1.x1.x0.x1, E.f64.ge a.val1.x1.x1.x0 b.val1.x1.x1.x0, E.f64.ge a.val1.x1.x1.x1
      b.val1.x1.x1.x1, E.f64.ge a.val2.x0.x0.x0 b.val2.x0.x0.x0, E.f64.ge a.val2.x0.x0.x1 b.val2.x0.x0.x1, E.f64.ge
      a.val2.x0.x1.x0 b.val2.x0.x1.x0, E.f64.ge a.val2.x0.x1.x1 b.val2.x0.x1.x1, E.f64.ge a.val2.x1.x0.x0 b.val2.x1.x0.x0,
      E.f64.ge a.val2.x1.x0.x1 b.val2.x1.x0.x1, E.f64.ge a.val2.x1.x1.x0 b.val2.x1.x1.x0, E.f64.ge a.val2.x1.x1.x1
      b.val2.x1.x1.x1, E.f64.ge a.val3.x0.x0.x0 b.val3.x0.x0.x0, E.f64.ge a.val3.x0.x0.x1 b.val3.x0.x0.x1, E.f64.ge
      a.val3.x0.x1.x0 b.val3.x0.x1.x0, E.f64.ge a.val3.x0.x1.x1 b.val3.x0.x1.x1, E.f64.ge a.val3.x1.x0.x0 b.val3.x1.x0.x0,
      E.f64.ge a.val3.x1.x0.x1 b.val3.x1.x0.x1, E.f64.ge a.val3.x1.x1.x0 b.val3.x1.x1.x0, E.f64.ge a.val3.x1.x1.x1
      b.val3.x1.x1.x1]), ?_, Nat.le_of_ble_eq_true rfl, fun i => ofBools_getLsbD _ _ (Nat.le_of_ble_eq_true rfl) i⟩
  have p0 : promote (_mm512_cmp_pd_mask E a.val0 b.val0 _CMP_GE_OS) <<< 0 = ofBools 32 [E.f64.ge a.val0.x0.x0.x0
      b.val0.x0.x0.x0, E.f64.ge a.val0.x0.x0.x1 b.val0.x0.x0.x1, E.f64.ge a.val0.x0.x1.x0 b.val0.x0.x1.x0, E.f64.ge
      a.val0.x0.x1.x1 b.val0.x0.x1.x1, E.f64.ge a.val0.x1.x0.x0 b.val0.x1.x0.x0, E.f64.ge a.val0.x1.x0.x1 b.val0.x1.x0.x1,
      E.f64.ge a.val0.x1.x1.x0 b.val0.x1.x1.x0, E.f64.ge a.val0.x1.x1.x1 b.val0.x1.x1.x1] := by
    rw [BitVec.shiftLeft_zero]; exact promote_ofBools _ (Nat.le_of_ble_eq_true rfl) (by decide)
  dsimp only [opGe]
  rw [p0]
  exact bindS (maskJoin 8 [E.f64.ge a.val0.x0.x0.x0 b.val0.x0.x0.x0, E.f64.ge a.val0.x0.x0.x1 b.val0.x0.x0.x1, E.f64.ge
      a.val0.x0.x1.x0 b.val0.x0.x1.x0, E.f64.ge a.val0.x0.x1.x1 b.val0.x0.x1.x1, E.f64.ge a.val0.x1.x0.x0 b.val0.x1.x0.x0,
      E.f64.ge a.val0.x1.x0.x1 b.val0.x1.x0.x1, E.f64.ge a.val0.x1.x1.x0 b.val0.x1.x1.x0, E.f64.ge a.val0.x1.x1.x1
      b.val0.x1.x1.x1] [E.f64.ge a.val1.x0.x0.x0 b.val1.x0.x0.x0, E.f64.ge a.val1.x0.x0.x1 b.val1.x0.x0.x1, E.f64.ge
      a.val1.x0.x1.x0 b.val1.x0.x1.x0, E.f64.ge a.val1.x0.x1.x1 b.val1.x0.x1.x1, E.f64.ge a.val1.x1.x0.x0 b.val1.x1.x0.x0,
      E.f64.ge a.val1.x1.x0.x1 b.val1.x1.x0.x1, E.f64.ge a.val1.x1.x1.x0 b.val1.x1.x1.x0, E.f64.ge a.val1.x1.x1.x1
      b.val1.x1.x1.x1] (Nat.le_of_ble_eq_true rfl) (by decide) (Nat.le_of_ble_eq_true rfl) (Nat.le_of_ble_eq_true rfl)) <| bindS
      (maskJoin 8 [E.f64.ge a.val0.x0.x0.x0 b.val0.x0.x0.x0, E.f64.ge a.val0.x0.x0.x1 b.val0.x0.x0.x1, E.f64.ge a.val0.x0.x1.x0
      b.val0.x0.x1.x0, E.f64.ge a.val0.x0.x1.x1 b.val0.x0.x1.x1, E.f64.ge a.val0.x1.x0.x0 b.val0.x1.x0.x0, E.f64.ge
      a.val0.x1.x0.x1 b.val0.x1.x0.x1, E.f64.ge a.val0.x1.x1.x0 b.val0.x1.x1.x0, E.f64.ge a.val0.x1.x1.x1 b.val0.x1.x1.x1,
      E.f64.ge a.val1.x0.x0.x0 b.val1.x0.x0.x0, E.f64.ge a.val1.x0.x0.x1 b.val1.x0.x0.x1, E.f64.ge a.val1.x0.x1.x0
      b.val1.x0.x1.x0, E.f64.ge a.val1.x0.x1.x1 b.val1.x0.x1.x1, E.f64.ge a.val1.x1.x0.x0 b.val1.x1.x0.x0, E.f64.ge
      a.val1.x1.x0.x1 b.val1.x1.x0.x1, E.f64.ge a.val1.x1.x1.x0 b.val1.x1.x1.x0, E.f64.ge a.val1.x1.x1.x1 b.val1.x1.x1.x1]
      [E.f64.ge a.val2.x0.x0.x0 b.val2.x0.x0.x0, E.f64.ge a.val2.x0.x0.x1 b.val2.x0.x0.x1, E.f64.ge a.val2.x0.x1.x0
      b.val2.x0.x1.x0, E.f64.ge a.val2.x0.x1.x1 b.val2.x0.x1.x1, E.f64.ge a.val2.x1.x0.x0 b.val2.x1.x0.x0, E.f64.ge
      a.val2.x1.x0.x1 b.val2.x1.x0.x1, E.f64.ge a.val2.x1.x1.x0 b.val2.x1.x1.x0, E.f64.ge a.val2.x1.x1.x1 b.val2.x1.x1.x1]
      (Nat.le_of_ble_eq_true rfl) (by decide) (Nat.le_of_ble_eq_true rfl) (Nat.le_of_ble_eq_true rfl)) <| bindS (maskJoin 8
      [E.f64.ge a.val0.x0.x0.x0 b.val0.x0.x0.x0, E.f64.ge a.val0.x0.x0.x1 b.val0.x0.x0.x1, E.f64.ge a.val0.x0.x1.x0
      b.val0.x0.x1.x0, E.f64.ge a.val0.x0.x1.x1 b.val0.x0.x1.x1, E.f64.ge a.val0.x1.x0.x0 b.val0.x1.x0.x0, E.f64.ge
      a.val0.x1.x0.x1 b.val0.x1.x0.x1, E.f64.ge a.val0.x1.x1.x0 b.val0.x1.x1.x0, E.f64.ge a.val0.x1.x1.x1 b.val0.x1.x1.x1,
      E.f64.ge a.val1.x0.x0.x0 b.val1.x0.x0.x0, E.f64.ge a.val1.x0.x0.x1 b.val1.x0.x0.x1, E.f64.ge a.val1.x0.x1.x0
      b.val1.x0.x1.x0, E.f64.ge a.val1.x0.x1.x1 b.val1.x0.x1.x1, E.f64.ge a.val1.x1.x0.x0 b.val1.x1.x0.x0, E.f64.ge
      a.val1.x1.x0.x1 b.val1.x1.x0.x1, E.f64.ge a.val1.x1.x1.x0 b.val1.x1.x1.x0, E.f64.ge a.val1.x1.x1.x1 b.val1.x1.x1.x1,
      E.f64.ge a.val2.x0.x0.x0 b.val2.x0.x0.x0, E.f64.ge a.val2.x0.x0.x1 b.val2.x0.x0.x1, E.f64.ge a.val2.x0.x1.x0
      b.val2.x0.x1.x0, E.f64.ge a.val2.x0.x1.x1 b.val2.x0.x1.x1, E.f64.ge a.val2.x1.x0.x0 b.val2.x1.x0.x0, E.f64.ge
      a.val2.x1.x0.x1 b.val2.x1.x0.x1, E.f64.ge a.val2.x1.x1.x0 b.val2.x1.x1.x0, E.f64.ge a.val2.x1.x1.x1 b.val2.x1.x1.x1]
      [E.f64.ge a.val3.x0.x0.x0 b.val3.x0.x0.x0, E.f64.ge a.val3.x0.x0.x1 b.val3.x0.x0.x1, E.f64.ge a.val3.x0.x1.x0
      b.val3.x0.x1.x0, E.f64.ge a.val3.x0.x1.x1 b.val3.x0.x1.x1, E.f64.ge a.val3.x1.x0.x0 b.val3.x1.x0.x0, E.f64.ge
      a.val3.x1.x0.x1 b.val3.x1.x0.x1, E.f64.ge a.val3.x1.x1.x0 b.val3.x1.x1.x0, E.f64.ge a.val3.x1.x1.x1 b.val3.x1.x1.x1]
      (Nat.le_of_ble_eq_true rfl) (by decide) (Nat.le_of_ble_eq_true rfl) (Nat.le_of_ble_eq_true rfl)) <| rfl

theorem blend_law (E : FEnv) : BlendLaw 32 V.lanes (MaskKind.bits 32 : MaskKind V (BitVec 32)) (blend E) :=
  by
  intro a m b bs hl hr
  obtain ⟨b0, b1, b2, b3, b4, b5, b6, b7, b8, b9, b10, b11, b12, b13, b14, b15, b16, b17, b18, b19, b20, b21, b22, b23, b24,
      b25, b26, b27, b28, b29, b30, b31, rfl⟩ := len32 hl
  have hr := rep32 hr.2
  dsimp only [blend, _mm512_mask_blend_ps, _mm512_mask_blend_pd, blendAt4, blendAt2, pick]
  simp only [psh8, psh16, sel8, sel16, selLo, promote_get, Nat.reduceAdd, Nat.reduceLT, Nat.zero_add, Nat.add_zero, decide_true,
      Bool.true_and, hr] <;> rfl

theorem any_law (E : FEnv) : AnyLaw 32 V.lanes (MaskKind.vec : MaskKind V V) (any E) :=
  by
  intro m bs hl hr
  obtain ⟨b0, b1, b2, b3, b4, b5, b6, b7, b8, b9, b10, b11, b12, b13, b14, b15, b16, b17, b18, b19, b20, b21, b22, b23, b24,
      b25, b26, b27, b28, b29, b30, b31, rfl⟩ := len32 hl
  change [m.val0.x0.x0.x0, m.val0.x0.x0.x1, m.val0.x0.x1.x0, m.val0.x0.x1.x1, m.val0.x1.x0.x0, m.val0.x1.x0.x1, m.val0.x1.x1.x0,
      m.val0.x1.x1.x1, m.val1.x0.x0.x0, m.val1.x0.x0.x1, m.val1.x0.x1.x0, m.val1.x0.x1.x1, m.val1.x1.x0.x0, m.val1.x1.x0.x1,
      m.val1.x1.x1.x0, m.val1.x1.x1.x1, m.val2.x0.x0.x0, m.val2.x0.x0.x1, m.val2.x0.x1.x0, m.val2.x0.x1.x1, m.val2.x1.x0.x0,
      m.val2.x1.x0.x1, m.val2.x1.x1.x0, m.val2.x1.x1.x1, m.val3.x0.x0.x0, m.val3.x0.x0.x1, m.val3.x0.x1.x0, m.val3.x0.x1.x1,
      m.val3.x1.x0.x0, m.val3.x1.x0.x1, m.val3.x1.x1.x0, m.val3.x1.x1.x1] = [pat 64 b0, pat 64 b1, pat 64 b2, pat 64 b3, pat 64
      b4, pat 64 b5, pat 64 b6, pat 64 b7, pat 64 b8, pat 64 b9, pat 64 b10, pat 64 b11, pat 64 b12, pat 64 b13, pat 64 b14, pat
      64 b15, pat 64 b16, pat 64 b17, pat 64 b18, pat 64 b19, pat 64 b20, pat 64 b21, pat 64 b22, pat 64 b23, pat 64 b24, pat 64
      b25, pat 64 b26, pat 64 b27, pat 64 b28, pat 64 b29, pat 64 b30, pat 64 b31] at hr
  simp only [List.cons.injEq, and_true] at hr
  dsimp only [any]
  simp only [_mm_castps_si128, _mm_castpd_si128, _mm256_castps_si256, _mm256_castpd_si256, _mm512_castps_si512,
      _mm512_castpd_si512, _mm_or_ps, _mm_or_pd, _mm256_or_ps, _mm256_or_pd, _mm512_or_ps, _mm512_or_pd, R4.map2, R2.map2,
      R4.map, R2.map, _mm_shuffle_ps, _mm_shuffle_pd, _mm_testz_si128, _mm256_testz_si256, _mm512_test_epi64_mask,
      _mm256_extractf128_ps, _mm256_extractf128_pd, R4.sel, R2.sel, _mm_cvtss_f32, _mm_cvtsd_f64, pat_or, pat_and_self,
      truthy32, truthy64, pat_lo, pat_hi, pat32_eq_zero, pat32_ne_zero, zero_eq_b2i, b2i_eq_one, Nat.reduceMod,
      Nat.reduceShiftRight, Nat.reduceEqDiff, if_true, if_false, reduceIte, List.cons_append, List.nil_append, ofBools_ne_zero,
      List.any, List.any_cons, List.any_nil, id, Bool.not_and, Bool.not_not, Bool.or_self, Bool.or_false, Bool.not_or,
      Bool.or_assoc, hr]
  rw [ofBools_ne_zero _ (Nat.le_of_ble_eq_true rfl)]
  simp only [List.any_cons, List.any_nil, id, Bool.or_false, Bool.or_assoc]
  try ac_rfl

theorem opIndex_law (E : FEnv) : IndexLaw 32 V.lanes (fun v i => opIndex E v i) :=
  fun _ => ofAll32 ⟨rfl, rfl, rfl, rfl, rfl, rfl, rfl, rfl, rfl, rfl, rfl, rfl, rfl, rfl, rfl, rfl, rfl, rfl, rfl, rfl, rfl,
      rfl, rfl, rfl, rfl, rfl, rfl, rfl, rfl, rfl, rfl, rfl⟩

end LFA.SV.Avx512Double32
