/-
  Generated by tools/sv_proofs.py: the classes of SV/SseFloat.lean obey the laws of SV/Spec.lean.
-/
import Verif.SV.SseFloat
import Verif.SV.LaneOps
import Verif.SV.Unroll
set_option autoImplicit false
set_option linter.unusedSimpArgs false
set_option linter.unusedVariables false
set_option maxRecDepth 100000
open LFA.SV

namespace LFA.SV.SseFloat4

theorem len_law : LenLaw 4 V.lanes :=
  fun _ => rfl

theorem bcast_law (E : FEnv) : BcastLaw 4 V.lanes (bcast E) :=
  fun _ => rfl

theorem opAdd_law (E : FEnv) : BinLaw V.lanes (fun a b => some (opAdd E a b)) (LaneOps.sse32.add E) :=
  binSome (fun _ _ => rfl)

theorem opSub_law (E : FEnv) : BinLaw V.lanes (fun a b => some (opSub E a b)) (LaneOps.sse32.sub E) :=
  binSome (fun _ _ => rfl)

theorem opMul_law (E : FEnv) : BinLaw V.lanes (fun a b => some (opMul E a b)) (LaneOps.sse32.mul E) :=
  binSome (fun _ _ => rfl)

theorem opDiv_law (E : FEnv) : BinLaw V.lanes (fun a b => some (opDiv E a b)) (LaneOps.sse32.div E) :=
  binSome (fun _ _ => rfl)

theorem opAddAssign_law (E : FEnv) : BinLaw V.lanes (fun a b => some (opAddAssign E a b)) (LaneOps.sse32.add E) :=
  binSome (fun _ _ => rfl)

theorem opSubAssign_law (E : FEnv) : BinLaw V.lanes (fun a b => some (opSubAssign E a b)) (LaneOps.sse32.sub E) :=
  binSome (fun _ _ => rfl)

theorem opMulAssign_law (E : FEnv) : BinLaw V.lanes (fun a b => some (opMulAssign E a b)) (LaneOps.sse32.mulA E) :=
  binSome (fun _ _ => rfl)

theorem opDivAssign_law (E : FEnv) : BinLaw V.lanes (fun a b => some (opDivAssign E a b)) (LaneOps.sse32.divA E) :=
  binSome (fun _ _ => rfl)

theorem ofSqrt_law (E : FEnv) : UnLaw V.lanes (fun a => some (ofSqrt E ⟨a⟩)) (LaneOps.sse32.sqrt E) :=
  unSome (fun _ => rfl)

theorem sqrt_law (E : FEnv) : UnLaw V.lanes (fun a => some (sqrt E a)) (LaneOps.sse32.sqrt E) :=
  unSome (fun _ => rfl)

theorem opDivSqrt_law (E : FEnv) : BinLaw V.lanes (fun a b => some (opDivSqrt E a ⟨b⟩)) (LaneOps.sse32.divSqrt E) :=
  binSome (fun _ _ => rfl)

theorem opDivAssignSqrt_law (E : FEnv) : BinLaw V.lanes (fun a b => some (opDivAssignSqrt E a ⟨b⟩)) (LaneOps.sse32.divSqrt E) :=
  binSome (fun _ _ => rfl)

theorem load_law (E : FEnv) (v : V) : LoadLaw 4 V.lanes (fun m p => load E m v p) 1 :=
  by
  intro m p g ha h
  have h := at4 h
  exact ⟨_, by simp only [load, load, _mm_loadu_ps, _mm_load_ps, _mm_loadu_pd, _mm_load_pd, _mm_loadu_si128, _mm_load_si128,
      _mm_load_ss, _mm_loadl_pd, _mm_loadh_pd, _mm256_loadu_ps, _mm256_load_ps, _mm256_loadu_pd, _mm256_load_pd,
      _mm256_loadu_si256, _mm256_load_si256, _mm512_loadu_ps, _mm512_load_ps, _mm512_loadu_pd, _mm512_load_pd,
      _mm512_loadu_si512, _mm512_load_epi32, vld1q_f32, vec_lda, ld16, ld8, ld2x, ld4, ld2, bind, Option.bind, Int.add_assoc,
      Int.reduceAdd, Int.add_zero, h] <;> rfl, rfl⟩

theorem load_aligned_law (E : FEnv) (v : V) : LoadLaw 4 V.lanes (fun m p => load_aligned E m v p) 16 :=
  by
  intro m p g ha h
  have ha : aligned 4 p 16 = true := ha
  have a16_0 := assertAligned_ok (aligned_of_dvd (al' := 16) ha (by decide))
  have h := at4 h
  exact ⟨_, by simp only [load_aligned, load, _mm_loadu_ps, _mm_load_ps, _mm_loadu_pd, _mm_load_pd, _mm_loadu_si128,
      _mm_load_si128, _mm_load_ss, _mm_loadl_pd, _mm_loadh_pd, _mm256_loadu_ps, _mm256_load_ps, _mm256_loadu_pd, _mm256_load_pd,
      _mm256_loadu_si256, _mm256_load_si256, _mm512_loadu_ps, _mm512_load_ps, _mm512_loadu_pd, _mm512_load_pd,
      _mm512_loadu_si512, _mm512_load_epi32, vld1q_f32, vec_lda, ld16, ld8, ld2x, ld4, ld2, bind, Option.bind, Int.add_assoc,
      Int.reduceAdd, Int.add_zero, h, a16_0] <;> rfl, rfl⟩

theorem ofPtr_law (E : FEnv) : LoadLaw 4 V.lanes (fun m p => ofPtr E m p) 1 :=
  by
  intro m p g ha h
  obtain ⟨v, h1, h2⟩ := load_law E _ m p g ha h
  exact ⟨v, bindS h1 rfl, h2⟩

theorem ofList_law (E : FEnv) : LoadLaw 4 V.lanes (fun m p => ofList E m p) 1 :=
  by
  intro m p g ha h
  obtain ⟨v, h1, h2⟩ := load_law E _ m p g ha h
  exact ⟨v, bindS h1 rfl, h2⟩

theorem store_law (E : FEnv) : StoreLaw 4 V.lanes (fun v p => store E v p) 1 :=
  storeOf (fun _ => rfl) fun v p ha => by
  change _ = some (st p [v.val.x0, v.val.x1, v.val.x2, v.val.x3])
  simp only [store, store, _mm_storeu_ps, _mm_store_ps, _mm_stream_ps, _mm_store_ss, _mm_storeu_pd, _mm_store_pd, _mm_stream_pd,
      _mm_storel_pd, _mm_storeh_pd, _mm_storeu_si128, _mm_store_si128, _mm_stream_si128, _mm256_storeu_ps, _mm256_store_ps,
      _mm256_stream_ps, _mm256_storeu_pd, _mm256_store_pd, _mm256_stream_pd, _mm256_storeu_si256, _mm256_store_si256,
      _mm256_stream_si256, _mm512_storeu_ps, _mm512_store_ps, _mm512_stream_ps, _mm512_storenr_ps, _mm512_storeu_pd,
      _mm512_store_pd, _mm512_stream_pd, _mm512_storenr_pd, _mm512_storeu_si512, _mm512_store_epi32, _mm512_stream_si512,
      vst1q_f32, vec_sta, st, lanes4, lanes2, lanes24, lanes22, lanes224, lanes222, List.cons_append, List.nil_append,
      List.append_nil, bind, Option.bind, Int.add_assoc, Int.reduceAdd, Int.add_zero]

theorem store_aligned_law (E : FEnv) : StoreLaw 4 V.lanes (fun v p => store_aligned E v p) 16 :=
  storeOf (fun _ => rfl) fun v p ha => by
  have ha : aligned 4 p 16 = true := ha
  have a16_0 := assertAligned_ok (aligned_of_dvd (al' := 16) ha (by decide))
  change _ = some (st p [v.val.x0, v.val.x1, v.val.x2, v.val.x3])
  simp only [store_aligned, store, _mm_storeu_ps, _mm_store_ps, _mm_stream_ps, _mm_store_ss, _mm_storeu_pd, _mm_store_pd,
      _mm_stream_pd, _mm_storel_pd, _mm_storeh_pd, _mm_storeu_si128, _mm_store_si128, _mm_stream_si128, _mm256_storeu_ps,
      _mm256_store_ps, _mm256_stream_ps, _mm256_storeu_pd, _mm256_store_pd, _mm256_stream_pd, _mm256_storeu_si256,
      _mm256_store_si256, _mm256_stream_si256, _mm512_storeu_ps, _mm512_store_ps, _mm512_stream_ps, _mm512_storenr_ps,
      _mm512_storeu_pd, _mm512_store_pd, _mm512_stream_pd, _mm512_storenr_pd, _mm512_storeu_si512, _mm512_store_epi32,
      _mm512_stream_si512, vst1q_f32, vec_sta, st, lanes4, lanes2, lanes24, lanes22, lanes224, lanes222, List.cons_append,
      List.nil_append, List.append_nil, bind, Option.bind, Int.add_assoc, Int.reduceAdd, Int.add_zero, a16_0]

theorem store_nt_law (E : FEnv) : StoreLaw 4 V.lanes (fun v p => store_nt E v p) 16 :=
  storeOf (fun _ => rfl) fun v p ha => by
  have ha : aligned 4 p 16 = true := ha
  have a16_0 := assertAligned_ok (aligned_of_dvd (al' := 16) ha (by decide))
  change _ = some (st p [v.val.x0, v.val.x1, v.val.x2, v.val.x3])
  simp only [store_nt, store, _mm_storeu_ps, _mm_store_ps, _mm_stream_ps, _mm_store_ss, _mm_storeu_pd, _mm_store_pd,
      _mm_stream_pd, _mm_storel_pd, _mm_storeh_pd, _mm_storeu_si128, _mm_store_si128, _mm_stream_si128, _mm256_storeu_ps,
      _mm256_store_ps, _mm256_stream_ps, _mm256_storeu_pd, _mm256_store_pd, _mm256_stream_pd, _mm256_storeu_si256,
      _mm256_store_si256, _mm256_stream_si256, _mm512_storeu_ps, _mm512_store_ps, _mm512_stream_ps, _mm512_storenr_ps,
      _mm512_storeu_pd, _mm512_store_pd, _mm512_stream_pd, _mm512_storenr_pd, _mm512_storeu_si512, _mm512_store_epi32,
      _mm512_stream_si512, vst1q_f32, vec_sta, st, lanes4, lanes2, lanes24, lanes22, lanes224, lanes222, List.cons_append,
      List.nil_append, List.append_nil, bind, Option.bind, Int.add_assoc, Int.reduceAdd, Int.add_zero, a16_0]

theorem opStore_law (E : FEnv) : StoreLaw 4 V.lanes (fun v p => opStore E p v) 1 :=
  by
  intro m v p ha h
  obtain ⟨ws, m', h1, h2⟩ := store_law E m v p ha h
  exact ⟨ws, m', bindS h1 rfl, h2⟩

theorem gather_avx512f_law (E : FEnv) (v : V) : GatherLaw 4 V.lanes (fun m mo p o => gather_avx512f E m mo v p o) 1 false :=
  by
  intro m mo p o off g ha hn ho hg
  have ho := at4 ho
  have hg := all4 hg
  have hn := all4 fun k hk => not_msb (hn rfl k hk)
  exact ⟨_, by simp only [gather_avx512f, _mm_loadu_ps, _mm_load_ps, _mm_loadu_pd, _mm_load_pd, _mm_loadu_si128, _mm_load_si128,
      _mm_load_ss, _mm_loadl_pd, _mm_loadh_pd, _mm256_loadu_ps, _mm256_load_ps, _mm256_loadu_pd, _mm256_load_pd,
      _mm256_loadu_si256, _mm256_load_si256, _mm512_loadu_ps, _mm512_load_ps, _mm512_loadu_pd, _mm512_load_pd,
      _mm512_loadu_si512, _mm512_load_epi32, vld1q_f32, vec_lda, ld16, ld8, ld2x, ld4, ld2, gath4, gath2x, _mm256_i32gather_ps,
      _mm256_i32gather_epi32, _mm256_i32gather_pd, _mm512_i32gather_ps, _mm512_i32gather_epi32, _mm512_i32gather_pd,
      _mm512_i32logather_pd, _mm512_permute4f128_epi32, SHORTVEC_INSERT_PS_AVX, SHORTVEC_INSERT_PS, gaddr44, gaddr88, bind,
      Option.bind, Int.add_assoc, Int.reduceAdd, Int.add_zero, ho, hg, hn, Bool.false_eq_true, if_false] <;> rfl, rfl⟩

theorem scatter_avx512f_law (E : FEnv) : ScatterLaw 4 V.lanes (fun mo v p o => scatter_avx512f E mo v p o) 1 :=
  by
  intro mo v p o off ha ho
  have ho := at4 ho
  simp only [scatter_avx512f, _mm_loadu_ps, _mm_load_ps, _mm_loadu_pd, _mm_load_pd, _mm_loadu_si128, _mm_load_si128,
      _mm_load_ss, _mm_loadl_pd, _mm_loadh_pd, _mm256_loadu_ps, _mm256_load_ps, _mm256_loadu_pd, _mm256_load_pd,
      _mm256_loadu_si256, _mm256_load_si256, _mm512_loadu_ps, _mm512_load_ps, _mm512_loadu_pd, _mm512_load_pd,
      _mm512_loadu_si512, _mm512_load_epi32, vld1q_f32, vec_lda, ld16, ld8, ld2x, ld4, ld2, _mm_storeu_ps, _mm_store_ps,
      _mm_stream_ps, _mm_store_ss, _mm_storeu_pd, _mm_store_pd, _mm_stream_pd, _mm_storel_pd, _mm_storeh_pd, _mm_storeu_si128,
      _mm_store_si128, _mm_stream_si128, _mm256_storeu_ps, _mm256_store_ps, _mm256_stream_ps, _mm256_storeu_pd, _mm256_store_pd,
      _mm256_stream_pd, _mm256_storeu_si256, _mm256_store_si256, _mm256_stream_si256, _mm512_storeu_ps, _mm512_store_ps,
      _mm512_stream_ps, _mm512_storenr_ps, _mm512_storeu_pd, _mm512_store_pd, _mm512_stream_pd, _mm512_storenr_pd,
      _mm512_storeu_si512, _mm512_store_epi32, _mm512_stream_si512, vst1q_f32, vec_sta, st, lanes4, lanes2, lanes24, lanes22,
      lanes224, lanes222, List.cons_append, List.nil_append, List.append_nil, scat, _mm512_i32scatter_ps,
      _mm512_i32scatter_epi32, _mm512_i32scatter_pd, _mm512_i32loscatter_pd, _mm512_permute4f128_epi32, bind, Option.bind,
      Int.add_assoc, Int.reduceAdd, Int.add_zero, ho, List.zipWith, gaddr44, gaddr88]
  rfl

theorem print_law (E : FEnv) : PrintLaw V.lanes (print E) :=
  fun _ => rfl

theorem opLt_law (E : FEnv) : CmpLaw V.lanes (MaskKind.vec : MaskKind V V) (fun a b => some (opLt E a b)) E.f32.lt :=
  fun _ _ => ⟨_, rfl, rfl⟩

theorem opLe_law (E : FEnv) : CmpLaw V.lanes (MaskKind.vec : MaskKind V V) (fun a b => some (opLe E a b)) E.f32.le :=
  fun _ _ => ⟨_, rfl, rfl⟩

theorem opEq_law (E : FEnv) : CmpLaw V.lanes (MaskKind.vec : MaskKind V V) (fun a b => some (opEq E a b)) E.f32.eq :=
  fun _ _ => ⟨_, rfl, rfl⟩

theorem opGt_law (E : FEnv) : CmpLaw V.lanes (MaskKind.vec : MaskKind V V) (fun a b => some (opGt E a b)) E.f32.gt :=
  fun _ _ => ⟨_, rfl, rfl⟩

theorem opGe_law (E : FEnv) : CmpLaw V.lanes (MaskKind.vec : MaskKind V V) (fun a b => some (opGe E a b)) E.f32.ge :=
  fun _ _ => ⟨_, rfl, rfl⟩

theorem blend_avx512f_law (E : FEnv) : BlendLaw 4 V.lanes (MaskKind.vec : MaskKind V V) (blend_avx512f E) :=
  by
  intro a m b bs hl hr
  obtain ⟨b0, b1, b2, b3, rfl⟩ := len4 hl
  change [m.val.x0, m.val.x1, m.val.x2, m.val.x3] = [pat 32 b0, pat 32 b1, pat 32 b2, pat 32 b3] at hr
  simp only [List.cons.injEq, and_true] at hr
  change [if m.val.x0.msb then b.val.x0 else a.val.x0, if m.val.x1.msb then b.val.x1 else a.val.x1, if m.val.x2.msb then
      b.val.x2 else a.val.x2, if m.val.x3.msb then b.val.x3 else a.val.x3] = _
  simp only [hr, pat_msb32] <;> rfl

theorem any_avx512f_law (E : FEnv) : AnyLaw 4 V.lanes (MaskKind.vec : MaskKind V V) (any_avx512f E) :=
  by
  intro m bs hl hr
  obtain ⟨b0, b1, b2, b3, rfl⟩ := len4 hl
  change [m.val.x0, m.val.x1, m.val.x2, m.val.x3] = [pat 32 b0, pat 32 b1, pat 32 b2, pat 32 b3] at hr
  simp only [List.cons.injEq, and_true] at hr
  dsimp only [any_avx512f]
  simp only [_mm_castps_si128, _mm_castpd_si128, _mm256_castps_si256, _mm256_castpd_si256, _mm512_castps_si512,
      _mm512_castpd_si512, _mm_or_ps, _mm_or_pd, _mm256_or_ps, _mm256_or_pd, _mm512_or_ps, _mm512_or_pd, R4.map2, R2.map2,
      R4.map, R2.map, _mm_shuffle_ps, _mm_shuffle_pd, _mm_testz_si128, _mm256_testz_si256, _mm512_test_epi64_mask,
      _mm256_extractf128_ps, _mm256_extractf128_pd, R4.sel, R2.sel, _mm_cvtss_f32, _mm_cvtsd_f64, pat_or, pat_and_self,
      truthy32, truthy64, pat_lo, pat_hi, pat32_eq_zero, pat32_ne_zero, zero_eq_b2i, b2i_eq_one, Nat.reduceMod,
      Nat.reduceShiftRight, Nat.reduceEqDiff, if_true, if_false, reduceIte, List.cons_append, List.nil_append, ofBools_ne_zero,
      List.any, List.any_cons, List.any_nil, id, Bool.not_and, Bool.not_not, Bool.or_self, Bool.or_false, Bool.not_or,
      Bool.or_assoc, hr]
  try ac_rfl

theorem opIndex_law (E : FEnv) : IndexLaw 4 V.lanes (fun v i => some (opIndex E v i)) :=
  fun _ => ofAll4 ⟨rfl, rfl, rfl, rfl⟩

theorem gather_sse_law (E : FEnv) (v : V) : GatherLaw 4 V.lanes (fun m mo p o => gather_sse E m mo v p o) 1 true :=
  by
  intro m mo p o off g ha hn ho hg
  have ho := at4 ho
  have hg := all4 hg
  exact ⟨_, by simp only [gather_sse, _mm_loadu_ps, _mm_load_ps, _mm_loadu_pd, _mm_load_pd, _mm_loadu_si128, _mm_load_si128,
      _mm_load_ss, _mm_loadl_pd, _mm_loadh_pd, _mm256_loadu_ps, _mm256_load_ps, _mm256_loadu_pd, _mm256_load_pd,
      _mm256_loadu_si256, _mm256_load_si256, _mm512_loadu_ps, _mm512_load_ps, _mm512_loadu_pd, _mm512_load_pd,
      _mm512_loadu_si512, _mm512_load_epi32, vld1q_f32, vec_lda, ld16, ld8, ld2x, ld4, ld2, gath4, gath2x, _mm256_i32gather_ps,
      _mm256_i32gather_epi32, _mm256_i32gather_pd, _mm512_i32gather_ps, _mm512_i32gather_epi32, _mm512_i32gather_pd,
      _mm512_i32logather_pd, _mm512_permute4f128_epi32, SHORTVEC_INSERT_PS_AVX, SHORTVEC_INSERT_PS, gaddr44, gaddr88, bind,
      Option.bind, Int.add_assoc, Int.reduceAdd, Int.add_zero, ho, hg] <;> rfl, rfl⟩

theorem scatter_sse_law (E : FEnv) : ScatterLaw 4 V.lanes (fun mo v p o => scatter_sse E mo v p o) 1 :=
  by
  intro mo v p o off ha ho
  have ho := at4 ho
  simp only [scatter_sse, _mm_loadu_ps, _mm_load_ps, _mm_loadu_pd, _mm_load_pd, _mm_loadu_si128, _mm_load_si128, _mm_load_ss,
      _mm_loadl_pd, _mm_loadh_pd, _mm256_loadu_ps, _mm256_load_ps, _mm256_loadu_pd, _mm256_load_pd, _mm256_loadu_si256,
      _mm256_load_si256, _mm512_loadu_ps, _mm512_load_ps, _mm512_loadu_pd, _mm512_load_pd, _mm512_loadu_si512,
      _mm512_load_epi32, vld1q_f32, vec_lda, ld16, ld8, ld2x, ld4, ld2, _mm_storeu_ps, _mm_store_ps, _mm_stream_ps,
      _mm_store_ss, _mm_storeu_pd, _mm_store_pd, _mm_stream_pd, _mm_storel_pd, _mm_storeh_pd, _mm_storeu_si128, _mm_store_si128,
      _mm_stream_si128, _mm256_storeu_ps, _mm256_store_ps, _mm256_stream_ps, _mm256_storeu_pd, _mm256_store_pd,
      _mm256_stream_pd, _mm256_storeu_si256, _mm256_store_si256, _mm256_stream_si256, _mm512_storeu_ps, _mm512_store_ps,
      _mm512_stream_ps, _mm512_storenr_ps, _mm512_storeu_pd, _mm512_store_pd, _mm512_stream_pd, _mm512_storenr_pd,
      _mm512_storeu_si512, _mm512_store_epi32, _mm512_stream_si512, vst1q_f32, vec_sta, st, lanes4, lanes2, lanes24, lanes22,
      lanes224, lanes222, List.cons_append, List.nil_append, List.append_nil, scat, _mm512_i32scatter_ps,
      _mm512_i32scatter_epi32, _mm512_i32scatter_pd, _mm512_i32loscatter_pd, _mm512_permute4f128_epi32, bind, Option.bind,
      Int.add_assoc, Int.reduceAdd, Int.add_zero, ho, List.zipWith, gaddr44, gaddr88]
  rfl

theorem blend_sse_law (E : FEnv) : BlendLaw 4 V.lanes (MaskKind.vec : MaskKind V V) (blend_sse E) :=
  by
  intro a m b bs hl hr
  obtain ⟨b0, b1, b2, b3, rfl⟩ := len4 hl
  change [m.val.x0, m.val.x1, m.val.x2, m.val.x3] = [pat 32 b0, pat 32 b1, pat 32 b2, pat 32 b3] at hr
  simp only [List.cons.injEq, and_true] at hr
  change [m.val.x0 &&& b.val.x0 ||| ~~~m.val.x0 &&& a.val.x0, m.val.x1 &&& b.val.x1 ||| ~~~m.val.x1 &&& a.val.x1, m.val.x2 &&&
      b.val.x2 ||| ~~~m.val.x2 &&& a.val.x2, m.val.x3 &&& b.val.x3 ||| ~~~m.val.x3 &&& a.val.x3] = _
  simp only [hr, pat_sel] <;> rfl

theorem any_sse_law (E : FEnv) : AnyLaw 4 V.lanes (MaskKind.vec : MaskKind V V) (any_sse E) :=
  by
  intro m bs hl hr
  obtain ⟨b0, b1, b2, b3, rfl⟩ := len4 hl
  change [m.val.x0, m.val.x1, m.val.x2, m.val.x3] = [pat 32 b0, pat 32 b1, pat 32 b2, pat 32 b3] at hr
  simp only [List.cons.injEq, and_true] at hr
  dsimp only [any_sse]
  simp only [_mm_castps_si128, _mm_castpd_si128, _mm256_castps_si256, _mm256_castpd_si256, _mm512_castps_si512,
      _mm512_castpd_si512, _mm_or_ps, _mm_or_pd, _mm256_or_ps, _mm256_or_pd, _mm512_or_ps, _mm512_or_pd, R4.map2, R2.map2,
      R4.map, R2.map, _mm_shuffle_ps, _mm_shuffle_pd, _mm_testz_si128, _mm256_testz_si256, _mm512_test_epi64_mask,
      _mm256_extractf128_ps, _mm256_extractf128_pd, R4.sel, R2.sel, _mm_cvtss_f32, _mm_cvtsd_f64, pat_or, pat_and_self,
      truthy32, truthy64, pat_lo, pat_hi, pat32_eq_zero, pat32_ne_zero, zero_eq_b2i, b2i_eq_one, Nat.reduceMod,
      Nat.reduceShiftRight, Nat.reduceEqDiff, if_true, if_false, reduceIte, List.cons_append, List.nil_append, ofBools_ne_zero,
      List.any, List.any_cons, List.any_nil, id, Bool.not_and, Bool.not_not, Bool.or_self, Bool.or_false, Bool.not_or,
      Bool.or_assoc, hr]
  try ac_rfl

end LFA.SV.SseFloat4

namespace LFA.SV.SseFloat8

theorem len_law : LenLaw 8 V.lanes :=
  fun _ => rfl

theorem bcast_law (E : FEnv) : BcastLaw 8 V.lanes (bcast E) :=
  fun _ => rfl

theorem opAdd_law (E : FEnv) : BinLaw V.lanes (fun a b => some (opAdd E a b)) (LaneOps.sse32.add E) :=
  binSome (fun _ _ => rfl)

theorem opSub_law (E : FEnv) : BinLaw V.lanes (fun a b => some (opSub E a b)) (LaneOps.sse32.sub E) :=
  binSome (fun _ _ => rfl)

theorem opMul_law (E : FEnv) : BinLaw V.lanes (fun a b => some (opMul E a b)) (LaneOps.sse32.mul E) :=
  binSome (fun _ _ => rfl)

theorem opDiv_law (E : FEnv) : BinLaw V.lanes (fun a b => some (opDiv E a b)) (LaneOps.sse32.div E) :=
  binSome (fun _ _ => rfl)

theorem opAddAssign_law (E : FEnv) : BinLaw V.lanes (fun a b => some (opAddAssign E a b)) (LaneOps.sse32.add E) :=
  binSome (fun _ _ => rfl)

theorem opSubAssign_law (E : FEnv) : BinLaw V.lanes (fun a b => some (opSubAssign E a b)) (LaneOps.sse32.sub E) :=
  binSome (fun _ _ => rfl)

theorem opMulAssign_law (E : FEnv) : BinLaw V.lanes (fun a b => some (opMulAssign E a b)) (LaneOps.sse32.mulA E) :=
  binSome (fun _ _ => rfl)

theorem opDivAssign_law (E : FEnv) : BinLaw V.lanes (fun a b => some (opDivAssign E a b)) (LaneOps.sse32.divA E) :=
  binSome (fun _ _ => rfl)

theorem ofSqrt_law (E : FEnv) : UnLaw V.lanes (fun a => some (ofSqrt E ⟨a⟩)) (LaneOps.sse32.sqrt E) :=
  unSome (fun _ => rfl)

theorem sqrt_law (E : FEnv) : UnLaw V.lanes (fun a => some (sqrt E a)) (LaneOps.sse32.sqrt E) :=
  unSome (fun _ => rfl)

theorem opDivSqrt_law (E : FEnv) : BinLaw V.lanes (fun a b => some (opDivSqrt E a ⟨b⟩)) (LaneOps.sse32.divSqrt E) :=
  binSome (fun _ _ => rfl)

theorem opDivAssignSqrt_law (E : FEnv) : BinLaw V.lanes (fun a b => some (opDivAssignSqrt E a ⟨b⟩)) (LaneOps.sse32.divSqrt E) :=
  binSome (fun _ _ => rfl)

theorem load_law (E : FEnv) (v : V) : LoadLaw 8 V.lanes (fun m p => load E m v p) 1 :=
  by
  intro m p g ha h
  have h := at8 h
  exact ⟨_, by simp only [load, load, _mm_loadu_ps, _mm_load_ps, _mm_loadu_pd, _mm_load_pd, _mm_loadu_si128, _mm_load_si128,
      _mm_load_ss, _mm_loadl_pd, _mm_loadh_pd, _mm256_loadu_ps, _mm256_load_ps, _mm256_loadu_pd, _mm256_load_pd,
      _mm256_loadu_si256, _mm256_load_si256, _mm512_loadu_ps, _mm512_load_ps, _mm512_loadu_pd, _mm512_load_pd,
      _mm512_loadu_si512, _mm512_load_epi32, vld1q_f32, vec_lda, ld16, ld8, ld2x, ld4, ld2, bind, Option.bind, Int.add_assoc,
      Int.reduceAdd, Int.add_zero, h] <;> rfl, rfl⟩

theorem load_aligned_law (E : FEnv) (v : V) : LoadLaw 8 V.lanes (fun m p => load_aligned E m v p) 16 :=
  by
  intro m p g ha h
  have ha : aligned 4 p 16 = true := ha
  have a16_0 := assertAligned_ok (aligned_of_dvd (al' := 16) ha (by decide))
  have a16_4 := assertAligned_ok (aligned_add 4 (aligned_of_dvd (al' := 16) ha (by decide)) (by decide))
  have h := at8 h
  exact ⟨_, by simp only [load_aligned, load, _mm_loadu_ps, _mm_load_ps, _mm_loadu_pd, _mm_load_pd, _mm_loadu_si128,
      _mm_load_si128, _mm_load_ss, _mm_loadl_pd, _mm_loadh_pd, _mm256_loadu_ps, _mm256_load_ps, _mm256_loadu_pd, _mm256_load_pd,
      _mm256_loadu_si256, _mm256_load_si256, _mm512_loadu_ps, _mm512_load_ps, _mm512_loadu_pd, _mm512_load_pd,
      _mm512_loadu_si512, _mm512_load_epi32, vld1q_f32, vec_lda, ld16, ld8, ld2x, ld4, ld2, bind, Option.bind, Int.add_assoc,
      Int.reduceAdd, Int.add_zero, h, a16_0, a16_4] <;> rfl, rfl⟩

theorem ofPtr_law (E : FEnv) : LoadLaw 8 V.lanes (fun m p => ofPtr E m p) 1 :=
  by
  intro m p g ha h
  obtain ⟨v, h1, h2⟩ := load_law E _ m p g ha h
  exact ⟨v, bindS h1 rfl, h2⟩

theorem ofList_law (E : FEnv) : LoadLaw 8 V.lanes (fun m p => ofList E m p) 1 :=
  by
  intro m p g ha h
  obtain ⟨v, h1, h2⟩ := load_law E _ m p g ha h
  exact ⟨v, bindS h1 rfl, h2⟩

theorem store_law (E : FEnv) : StoreLaw 8 V.lanes (fun v p => store E v p) 1 :=
  storeOf (fun _ => rfl) fun v p ha => by
  change _ = some (st p [v.val0.x0, v.val0.x1, v.val0.x2, v.val0.x3, v.val1.x0, v.val1.x1, v.val1.x2, v.val1.x3])
  simp only [store, store, _mm_storeu_ps, _mm_store_ps, _mm_stream_ps, _mm_store_ss, _mm_storeu_pd, _mm_store_pd, _mm_stream_pd,
      _mm_storel_pd, _mm_storeh_pd, _mm_storeu_si128, _mm_store_si128, _mm_stream_si128, _mm256_storeu_ps, _mm256_store_ps,
      _mm256_stream_ps, _mm256_storeu_pd, _mm256_store_pd, _mm256_stream_pd, _mm256_storeu_si256, _mm256_store_si256,
      _mm256_stream_si256, _mm512_storeu_ps, _mm512_store_ps, _mm512_stream_ps, _mm512_storenr_ps, _mm512_storeu_pd,
      _mm512_store_pd, _mm512_stream_pd, _mm512_storenr_pd, _mm512_storeu_si512, _mm512_store_epi32, _mm512_stream_si512,
      vst1q_f32, vec_sta, st, lanes4, lanes2, lanes24, lanes22, lanes224, lanes222, List.cons_append, List.nil_append,
      List.append_nil, bind, Option.bind, Int.add_assoc, Int.reduceAdd, Int.add_zero]

theorem store_aligned_law (E : FEnv) : StoreLaw 8 V.lanes (fun v p => store_aligned E v p) 16 :=
  storeOf (fun _ => rfl) fun v p ha => by
  have ha : aligned 4 p 16 = true := ha
  have a16_0 := assertAligned_ok (aligned_of_dvd (al' := 16) ha (by decide))
  have a16_4 := assertAligned_ok (aligned_add 4 (aligned_of_dvd (al' := 16) ha (by decide)) (by decide))
  change _ = some (st p [v.val0.x0, v.val0.x1, v.val0.x2, v.val0.x3, v.val1.x0, v.val1.x1, v.val1.x2, v.val1.x3])
  simp only [store_aligned, store, _mm_storeu_ps, _mm_store_ps, _mm_stream_ps, _mm_store_ss, _mm_storeu_pd, _mm_store_pd,
      _mm_stream_pd, _mm_storel_pd, _mm_storeh_pd, _mm_storeu_si128, _mm_store_si128, _mm_stream_si128, _mm256_storeu_ps,
      _mm256_store_ps, _mm256_stream_ps, _mm256_storeu_pd, _mm256_store_pd, _mm256_stream_pd, _mm256_storeu_si256,
      _mm256_store_si256, _mm256_stream_si256, _mm512_storeu_ps, _mm512_store_ps, _mm512_stream_ps, _mm512_storenr_ps,
      _mm512_storeu_pd, _mm512_store_pd, _mm512_stream_pd, _mm512_storenr_pd, _mm512_storeu_si512, _mm512_store_epi32,
      _mm512_stream_si512, vst1q_f32, vec_sta, st, lanes4, lanes2, lanes24, lanes22, lanes224, lanes222, List.cons_append,
      List.nil_append, List.append_nil, bind, Option.bind, Int.add_assoc, Int.reduceAdd, Int.add_zero, a16_0, a16_4]

theorem store_nt_law (E : FEnv) : StoreLaw 8 V.lanes (fun v p => store_nt E v p) 16 :=
  storeOf (fun _ => rfl) fun v p ha => by
  have ha : aligned 4 p 16 = true := ha
  have a16_0 := assertAligned_ok (aligned_of_dvd (al' := 16) ha (by decide))
  have a16_4 := assertAligned_ok (aligned_add 4 (aligned_of_dvd (al' := 16) ha (by decide)) (by decide))
  change _ = some (st p [v.val0.x0, v.val0.x1, v.val0.x2, v.val0.x3, v.val1.x0, v.val1.x1, v.val1.x2, v.val1.x3])
  simp only [store_nt, store, _mm_storeu_ps, _mm_store_ps, _mm_stream_ps, _mm_store_ss, _mm_storeu_pd, _mm_store_pd,
      _mm_stream_pd, _mm_storel_pd, _mm_storeh_pd, _mm_storeu_si128, _mm_store_si128, _mm_stream_si128, _mm256_storeu_ps,
      _mm256_store_ps, _mm256_stream_ps, _mm256_storeu_pd, _mm256_store_pd, _mm256_stream_pd, _mm256_storeu_si256,
      _mm256_store_si256, _mm256_stream_si256, _mm512_storeu_ps, _mm512_store_ps, _mm512_stream_ps, _mm512_storenr_ps,
      _mm512_storeu_pd, _mm512_store_pd, _mm512_stream_pd, _mm512_storenr_pd, _mm512_storeu_si512, _mm512_store_epi32,
      _mm512_stream_si512, vst1q_f32, vec_sta, st, lanes4, lanes2, lanes24, lanes22, lanes224, lanes222, List.cons_append,
      List.nil_append, List.append_nil, bind, Option.bind, Int.add_assoc, Int.reduceAdd, Int.add_zero, a16_0, a16_4]

theorem opStore_law (E : FEnv) : StoreLaw 8 V.lanes (fun v p => opStore E p v) 1 :=
  by
  intro m v p ha h
  obtain ⟨ws, m', h1, h2⟩ := store_law E m v p ha h
  exact ⟨ws, m', bindS h1 rfl, h2⟩

theorem gather_sse_law (E : FEnv) (v : V) : GatherLaw 8 V.lanes (fun m mo p o => gather_sse E m mo v p o) 1 true :=
  by
  intro m mo p o off g ha hn ho hg
  have ho := at8 ho
  have hg := all8 hg
  exact ⟨_, by simp only [gather_sse, _mm_loadu_ps, _mm_load_ps, _mm_loadu_pd, _mm_load_pd, _mm_loadu_si128, _mm_load_si128,
      _mm_load_ss, _mm_loadl_pd, _mm_loadh_pd, _mm256_loadu_ps, _mm256_load_ps, _mm256_loadu_pd, _mm256_load_pd,
      _mm256_loadu_si256, _mm256_load_si256, _mm512_loadu_ps, _mm512_load_ps, _mm512_loadu_pd, _mm512_load_pd,
      _mm512_loadu_si512, _mm512_load_epi32, vld1q_f32, vec_lda, ld16, ld8, ld2x, ld4, ld2, gath4, gath2x, _mm256_i32gather_ps,
      _mm256_i32gather_epi32, _mm256_i32gather_pd, _mm512_i32gather_ps, _mm512_i32gather_epi32, _mm512_i32gather_pd,
      _mm512_i32logather_pd, _mm512_permute4f128_epi32, SHORTVEC_INSERT_PS_AVX, SHORTVEC_INSERT_PS, gaddr44, gaddr88, bind,
      Option.bind, Int.add_assoc, Int.reduceAdd, Int.add_zero, ho, hg] <;> rfl, rfl⟩

theorem scatter_sse_law (E : FEnv) : ScatterLaw 8 V.lanes (fun mo v p o => scatter_sse E mo v p o) 1 :=
  by
  intro mo v p o off ha ho
  have ho := at8 ho
  simp only [scatter_sse, _mm_loadu_ps, _mm_load_ps, _mm_loadu_pd, _mm_load_pd, _mm_loadu_si128, _mm_load_si128, _mm_load_ss,
      _mm_loadl_pd, _mm_loadh_pd, _mm256_loadu_ps, _mm256_load_ps, _mm256_loadu_pd, _mm256_load_pd, _mm256_loadu_si256,
      _mm256_load_si256, _mm512_loadu_ps, _mm512_load_ps, _mm512_loadu_pd, _mm512_load_pd, _mm512_loadu_si512,
      _mm512_load_epi32, vld1q_f32, vec_lda, ld16, ld8, ld2x, ld4, ld2, _mm_storeu_ps, _mm_store_ps, _mm_stream_ps,
      _mm_store_ss, _mm_storeu_pd, _mm_store_pd, _mm_stream_pd, _mm_storel_pd, _mm_storeh_pd, _mm_storeu_si128, _mm_store_si128,
      _mm_stream_si128, _mm256_storeu_ps, _mm256_store_ps, _mm256_stream_ps, _mm256_storeu_pd, _mm256_store_pd,
      _mm256_stream_pd, _mm256_storeu_si256, _mm256_store_si256, _mm256_stream_si256, _mm512_storeu_ps, _mm512_store_ps,
      _mm512_stream_ps, _mm512_storenr_ps, _mm512_storeu_pd, _mm512_store_pd, _mm512_stream_pd, _mm512_storenr_pd,
      _mm512_storeu_si512, _mm512_store_epi32, _mm512_stream_si512, vst1q_f32, vec_sta, st, lanes4, lanes2, lanes24, lanes22,
      lanes224, lanes222, List.cons_append, List.nil_append, List.append_nil, scat, _mm512_i32scatter_ps,
      _mm512_i32scatter_epi32, _mm512_i32scatter_pd, _mm512_i32loscatter_pd, _mm512_permute4f128_epi32, bind, Option.bind,
      Int.add_assoc, Int.reduceAdd, Int.add_zero, ho, List.zipWith, gaddr44, gaddr88]
  rfl

theorem print_law (E : FEnv) : PrintLaw V.lanes (print E) :=
  fun _ => rfl

theorem opLt_law (E : FEnv) : CmpLaw V.lanes (MaskKind.vec : MaskKind V V) (fun a b => some (opLt E a b)) E.f32.lt :=
  fun _ _ => ⟨_, rfl, rfl⟩

theorem opLe_law (E : FEnv) : CmpLaw V.lanes (MaskKind.vec : MaskKind V V) (fun a b => some (opLe E a b)) E.f32.le :=
  fun _ _ => ⟨_, rfl, rfl⟩

theorem opEq_law (E : FEnv) : CmpLaw V.lanes (MaskKind.vec : MaskKind V V) (fun a b => some (opEq E a b)) E.f32.eq :=
  fun _ _ => ⟨_, rfl, rfl⟩

theorem opGt_law (E : FEnv) : CmpLaw V.lanes (MaskKind.vec : MaskKind V V) (fun a b => some (opGt E a b)) E.f32.gt :=
  fun _ _ => ⟨_, rfl, rfl⟩

theorem opGe_law (E : FEnv) : CmpLaw V.lanes (MaskKind.vec : MaskKind V V) (fun a b => some (opGe E a b)) E.f32.ge :=
  fun _ _ => ⟨_, rfl, rfl⟩

theorem blend_sse_law (E : FEnv) : BlendLaw 8 V.lanes (MaskKind.vec : MaskKind V V) (blend_sse E) :=
  by
  intro a m b bs hl hr
  obtain ⟨b0, b1, b2, b3, b4, b5, b6, b7, rfl⟩ := len8 hl
  change [m.val0.x0, m.val0.x1, m.val0.x2, m.val0.x3, m.val1.x0, m.val1.x1, m.val1.x2, m.val1.x3] = [pat 32 b0, pat 32 b1, pat
      32 b2, pat 32 b3, pat 32 b4, pat 32 b5, pat 32 b6, pat 32 b7] at hr
  simp only [List.cons.injEq, and_true] at hr
  change [m.val0.x0 &&& b.val0.x0 ||| ~~~m.val0.x0 &&& a.val0.x0, m.val0.x1 &&& b.val0.x1 ||| ~~~m.val0.x1 &&& a.val0.x1,
      m.val0.x2 &&& b.val0.x2 ||| ~~~m.val0.x2 &&& a.val0.x2, m.val0.x3 &&& b.val0.x3 ||| ~~~m.val0.x3 &&& a.val0.x3, m.val1.x0
      &&& b.val1.x0 ||| ~~~m.val1.x0 &&& a.val1.x0, m.val1.x1 &&& b.val1.x1 ||| ~~~m.val1.x1 &&& a.val1.x1, m.val1.x2 &&&
      b.val1.x2 ||| ~~~m.val1.x2 &&& a.val1.x2, m.val1.x3 &&& b.val1.x3 ||| ~~~m.val1.x3 &&& a.val1.x3] = _
  simp only [hr, pat_sel] <;> rfl

theorem any_sse_law (E : FEnv) : AnyLaw 8 V.lanes (MaskKind.vec : MaskKind V V) (any_sse E) :=
  by
  intro m bs hl hr
  obtain ⟨b0, b1, b2, b3, b4, b5, b6, b7, rfl⟩ := len8 hl
  change [m.val0.x0, m.val0.x1, m.val0.x2, m.val0.x3, m.val1.x0, m.val1.x1, m.val1.x2, m.val1.x3] = [pat 32 b0, pat 32 b1, pat
      32 b2, pat 32 b3, pat 32 b4, pat 32 b5, pat 32 b6, pat 32 b7] at hr
  simp only [List.cons.injEq, and_true] at hr
  dsimp only [any_sse]
  simp only [_mm_castps_si128, _mm_castpd_si128, _mm256_castps_si256, _mm256_castpd_si256, _mm512_castps_si512,
      _mm512_castpd_si512, _mm_or_ps, _mm_or_pd, _mm256_or_ps, _mm256_or_pd, _mm512_or_ps, _mm512_or_pd, R4.map2, R2.map2,
      R4.map, R2.map, _mm_shuffle_ps, _mm_shuffle_pd, _mm_testz_si128, _mm256_testz_si256, _mm512_test_epi64_mask,
      _mm256_extractf128_ps, _mm256_extractf128_pd, R4.sel, R2.sel, _mm_cvtss_f32, _mm_cvtsd_f64, pat_or, pat_and_self,
      truthy32, truthy64, pat_lo, pat_hi, pat32_eq_zero, pat32_ne_zero, zero_eq_b2i, b2i_eq_one, Nat.reduceMod,
      Nat.reduceShiftRight, Nat.reduceEqDiff, if_true, if_false, reduceIte, List.cons_append, List.nil_append, ofBools_ne_zero,
      List.any, List.any_cons, List.any_nil, id, Bool.not_and, Bool.not_not, Bool.or_self, Bool.or_false, Bool.not_or,
      Bool.or_assoc, hr]
  try ac_rfl

theorem opIndex_law (E : FEnv) : IndexLaw 8 V.lanes (fun v i => opIndex E v i) :=
  fun _ => ofAll8 ⟨rfl, rfl, rfl, rfl, rfl, rfl, rfl, rfl⟩

theorem gather_sse41_law (E : FEnv) (v : V) : GatherLaw 8 V.lanes (fun m mo p o => gather_sse41 E m mo v p o) 1 false :=
  by
  intro m mo p o off g ha hn ho hg
  have ho := at8 ho
  have hg := all8 hg
  have hn := all8 fun k hk => not_msb (hn rfl k hk)
  exact ⟨_, by simp only [gather_sse41, _mm_loadu_ps, _mm_load_ps, _mm_loadu_pd, _mm_load_pd, _mm_loadu_si128, _mm_load_si128,
      _mm_load_ss, _mm_loadl_pd, _mm_loadh_pd, _mm256_loadu_ps, _mm256_load_ps, _mm256_loadu_pd, _mm256_load_pd,
      _mm256_loadu_si256, _mm256_load_si256, _mm512_loadu_ps, _mm512_load_ps, _mm512_loadu_pd, _mm512_load_pd,
      _mm512_loadu_si512, _mm512_load_epi32, vld1q_f32, vec_lda, ld16, ld8, ld2x, ld4, ld2, gath4, gath2x, _mm256_i32gather_ps,
      _mm256_i32gather_epi32, _mm256_i32gather_pd, _mm512_i32gather_ps, _mm512_i32gather_epi32, _mm512_i32gather_pd,
      _mm512_i32logather_pd, _mm512_permute4f128_epi32, SHORTVEC_INSERT_PS_AVX, SHORTVEC_INSERT_PS, gaddr44, gaddr88, bind,
      Option.bind, Int.add_assoc, Int.reduceAdd, Int.add_zero, ho, hg, hn, Bool.false_eq_true, if_false] <;> rfl, rfl⟩

theorem scatter_sse41_law (E : FEnv) : ScatterLaw 8 V.lanes (fun mo v p o => scatter_sse41 E mo v p o) 1 :=
  by
  intro mo v p o off ha ho
  have ho := at8 ho
  simp only [scatter_sse41, _mm_loadu_ps, _mm_load_ps, _mm_loadu_pd, _mm_load_pd, _mm_loadu_si128, _mm_load_si128, _mm_load_ss,
      _mm_loadl_pd, _mm_loadh_pd, _mm256_loadu_ps, _mm256_load_ps, _mm256_loadu_pd, _mm256_load_pd, _mm256_loadu_si256,
      _mm256_load_si256, _mm512_loadu_ps, _mm512_load_ps, _mm512_loadu_pd, _mm512_load_pd, _mm512_loadu_si512,
      _mm512_load_epi32, vld1q_f32, vec_lda, ld16, ld8, ld2x, ld4, ld2, _mm_storeu_ps, _mm_store_ps, _mm_stream_ps,
      _mm_store_ss, _mm_storeu_pd, _mm_store_pd, _mm_stream_pd, _mm_storel_pd, _mm_storeh_pd, _mm_storeu_si128, _mm_store_si128,
      _mm_stream_si128, _mm256_storeu_ps, _mm256_store_ps, _mm256_stream_ps, _mm256_storeu_pd, _mm256_store_pd,
      _mm256_stream_pd, _mm256_storeu_si256, _mm256_store_si256, _mm256_stream_si256, _mm512_storeu_ps, _mm512_store_ps,
      _mm512_stream_ps, _mm512_storenr_ps, _mm512_storeu_pd, _mm512_store_pd, _mm512_stream_pd, _mm512_storenr_pd,
      _mm512_storeu_si512, _mm512_store_epi32, _mm512_stream_si512, vst1q_f32, vec_sta, st, lanes4, lanes2, lanes24, lanes22,
      lanes224, lanes222, List.cons_append, List.nil_append, List.append_nil, scat, _mm512_i32scatter_ps,
      _mm512_i32scatter_epi32, _mm512_i32scatter_pd, _mm512_i32loscatter_pd, _mm512_permute4f128_epi32, bind, Option.bind,
      Int.add_assoc, Int.reduceAdd, Int.add_zero, ho, List.zipWith, gaddr44, gaddr88]
  rfl

theorem blend_sse41_law (E : FEnv) : BlendLaw 8 V.lanes (MaskKind.vec : MaskKind V V) (blend_sse41 E) :=
  by
  intro a m b bs hl hr
  obtain ⟨b0, b1, b2, b3, b4, b5, b6, b7, rfl⟩ := len8 hl
  change [m.val0.x0, m.val0.x1, m.val0.x2, m.val0.x3, m.val1.x0, m.val1.x1, m.val1.x2, m.val1.x3] = [pat 32 b0, pat 32 b1, pat
      32 b2, pat 32 b3, pat 32 b4, pat 32 b5, pat 32 b6, pat 32 b7] at hr
  simp only [List.cons.injEq, and_true] at hr
  change [if m.val0.x0.msb then b.val0.x0 else a.val0.x0, if m.val0.x1.msb then b.val0.x1 else a.val0.x1, if m.val0.x2.msb then
      b.val0.x2 else a.val0.x2, if m.val0.x3.msb then b.val0.x3 else a.val0.x3, if m.val1.x0.msb then b.val1.x0 else a.val1.x0,
      if m.val1.x1.msb then b.val1.x1 else a.val1.x1, if m.val1.x2.msb then b.val1.x2 else a.val1.x2, if m.val1.x3.msb then
      b.val1.x3 else a.val1.x3] = _
  simp only [hr, pat_msb32] <;> rfl

theorem any_sse41_law (E : FEnv) : AnyLaw 8 V.lanes (MaskKind.vec : MaskKind V V) (any_sse41 E) :=
  by
  intro m bs hl hr
  obtain ⟨b0, b1, b2, b3, b4, b5, b6, b7, rfl⟩ := len8 hl
  change [m.val0.x0, m.val0.x1, m.val0.x2, m.val0.x3, m.val1.x0, m.val1.x1, m.val1.x2, m.val1.x3] = [pat 32 b0, pat 32 b1, pat
      32 b2, pat 32 b3, pat 32 b4, pat 32 b5, pat 32 b6, pat 32 b7] at hr
  simp only [List.cons.injEq, and_true] at hr
  dsimp only [any_sse41]
  simp only [_mm_castps_si128, _mm_castpd_si128, _mm256_castps_si256, _mm256_castpd_si256, _mm512_castps_si512,
      _mm512_castpd_si512, _mm_or_ps, _mm_or_pd, _mm256_or_ps, _mm256_or_pd, _mm512_or_ps, _mm512_or_pd, R4.map2, R2.map2,
      R4.map, R2.map, _mm_shuffle_ps, _mm_shuffle_pd, _mm_testz_si128, _mm256_testz_si256, _mm512_test_epi64_mask,
      _mm256_extractf128_ps, _mm256_extractf128_pd, R4.sel, R2.sel, _mm_cvtss_f32, _mm_cvtsd_f64, pat_or, pat_and_self,
      truthy32, truthy64, pat_lo, pat_hi, pat32_eq_zero, pat32_ne_zero, zero_eq_b2i, b2i_eq_one, Nat.reduceMod,
      Nat.reduceShiftRight, Nat.reduceEqDiff, if_true, if_false, reduceIte, List.cons_append, List.nil_append, ofBools_ne_zero,
      List.any, List.any_cons, List.any_nil, id, Bool.not_and, Bool.not_not, Bool.or_self, Bool.or_false, Bool.not_or,
      Bool.or_assoc, hr]
  try ac_rfl

end LFA.SV.SseFloat8

namespace LFA.SV.SseFloat16

theorem len_law : LenLaw 16 V.lanes :=
  fun _ => rfl

theorem bcast_law (E : FEnv) : BcastLaw 16 V.lanes (bcast E) :=
  fun _ => rfl

theorem opAdd_law (E : FEnv) : BinLaw V.lanes (fun a b => some (opAdd E a b)) (LaneOps.sse32.add E) :=
  binSome (fun _ _ => rfl)

theorem opSub_law (E : FEnv) : BinLaw V.lanes (fun a b => some (opSub E a b)) (LaneOps.sse32.sub E) :=
  binSome (fun _ _ => rfl)

theorem opMul_law (E : FEnv) : BinLaw V.lanes (fun a b => some (opMul E a b)) (LaneOps.sse32.mul E) :=
  binSome (fun _ _ => rfl)

theorem opDiv_law (E : FEnv) : BinLaw V.lanes (fun a b => some (opDiv E a b)) (LaneOps.sse32.div E) :=
  binSome (fun _ _ => rfl)

theorem opAddAssign_law (E : FEnv) : BinLaw V.lanes (fun a b => some (opAddAssign E a b)) (LaneOps.sse32.add E) :=
  binSome (fun _ _ => rfl)

theorem opSubAssign_law (E : FEnv) : BinLaw V.lanes (fun a b => some (opSubAssign E a b)) (LaneOps.sse32.sub E) :=
  binSome (fun _ _ => rfl)

theorem opMulAssign_law (E : FEnv) : BinLaw V.lanes (fun a b => some (opMulAssign E a b)) (LaneOps.sse32.mulA E) :=
  binSome (fun _ _ => rfl)

theorem opDivAssign_law (E : FEnv) : BinLaw V.lanes (fun a b => some (opDivAssign E a b)) (LaneOps.sse32.divA E) :=
  binSome (fun _ _ => rfl)

theorem ofSqrt_law (E : FEnv) : UnLaw V.lanes (fun a => some (ofSqrt E ⟨a⟩)) (LaneOps.sse32.sqrt E) :=
  unSome (fun _ => rfl)

theorem sqrt_law (E : FEnv) : UnLaw V.lanes (fun a => some (sqrt E a)) (LaneOps.sse32.sqrt E) :=
  unSome (fun _ => rfl)

theorem opDivSqrt_law (E : FEnv) : BinLaw V.lanes (fun a b => some (opDivSqrt E a ⟨b⟩)) (LaneOps.sse32.divSqrt E) :=
  binSome (fun _ _ => rfl)

theorem opDivAssignSqrt_law (E : FEnv) : BinLaw V.lanes (fun a b => some (opDivAssignSqrt E a ⟨b⟩)) (LaneOps.sse32.divSqrt E) :=
  binSome (fun _ _ => rfl)

theorem load_law (E : FEnv) (v : V) : LoadLaw 16 V.lanes (fun m p => load E m v p) 1 :=
  by
  intro m p g ha h
  have h := at16 h
  exact ⟨_, by simp only [load, load, _mm_loadu_ps, _mm_load_ps, _mm_loadu_pd, _mm_load_pd, _mm_loadu_si128, _mm_load_si128,
      _mm_load_ss, _mm_loadl_pd, _mm_loadh_pd, _mm256_loadu_ps, _mm256_load_ps, _mm256_loadu_pd, _mm256_load_pd,
      _mm256_loadu_si256, _mm256_load_si256, _mm512_loadu_ps, _mm512_load_ps, _mm512_loadu_pd, _mm512_load_pd,
      _mm512_loadu_si512, _mm512_load_epi32, vld1q_f32, vec_lda, ld16, ld8, ld2x, ld4, ld2, bind, Option.bind, Int.add_assoc,
      Int.reduceAdd, Int.add_zero, h] <;> rfl, rfl⟩

theorem load_aligned_law (E : FEnv) (v : V) : LoadLaw 16 V.lanes (fun m p => load_aligned E m v p) 16 :=
  by
  intro m p g ha h
  have ha : aligned 4 p 16 = true := ha
  have a16_0 := assertAligned_ok (aligned_of_dvd (al' := 16) ha (by decide))
  have a16_4 := assertAligned_ok (aligned_add 4 (aligned_of_dvd (al' := 16) ha (by decide)) (by decide))
  have a16_8 := assertAligned_ok (aligned_add 8 (aligned_of_dvd (al' := 16) ha (by decide)) (by decide))
  have a16_12 := assertAligned_ok (aligned_add 12 (aligned_of_dvd (al' := 16) ha (by decide)) (by decide))
  have h := at16 h
  exact ⟨_, by simp only [load_aligned, load, _mm_loadu_ps, _mm_load_ps, _mm_loadu_pd, _mm_load_pd, _mm_loadu_si128,
      _mm_load_si128, _mm_load_ss, _mm_loadl_pd, _mm_loadh_pd, _mm256_loadu_ps, _mm256_load_ps, _mm256_loadu_pd, _mm256_load_pd,
      _mm256_loadu_si256, _mm256_load_si256, _mm512_loadu_ps, _mm512_load_ps, _mm512_loadu_pd, _mm512_load_pd,
      _mm512_loadu_si512, _mm512_load_epi32, vld1q_f32, vec_lda, ld16, ld8, ld2x, ld4, ld2, bind, Option.bind, Int.add_assoc,
      Int.reduceAdd, Int.add_zero, h, a16_0, a16_4, a16_8, a16_12] <;> rfl, rfl⟩

theorem ofPtr_law (E : FEnv) : LoadLaw 16 V.lanes (fun m p => ofPtr E m p) 1 :=
  by
  intro m p g ha h
  obtain ⟨v, h1, h2⟩ := load_law E _ m p g ha h
  exact ⟨v, bindS h1 rfl, h2⟩

theorem ofList_law (E : FEnv) : LoadLaw 16 V.lanes (fun m p => ofList E m p) 1 :=
  by
  intro m p g ha h
  obtain ⟨v, h1, h2⟩ := load_law E _ m p g ha h
  exact ⟨v, bindS h1 rfl, h2⟩

theorem store_law (E : FEnv) : StoreLaw 16 V.lanes (fun v p => store E v p) 1 :=
  storeOf (fun _ => rfl) fun v p ha => by
  change _ = some (st p [v.val0.x0, v.val0.x1, v.val0.x2, v.val0.x3, v.val1.x0, v.val1.x1, v.val1.x2, v.val1.x3, v.val2.x0,
      v.val2.x1, v.val2.x2, v.val2.x3, v.val3.x0, v.val3.x1, v.val3.x2, v.val3.x3])
  simp only [store, store, _mm_storeu_ps, _mm_store_ps, _mm_stream_ps, _mm_store_ss, _mm_storeu_pd, _mm_store_pd, _mm_stream_pd,
      _mm_storel_pd, _mm_storeh_pd, _mm_storeu_si128, _mm_store_si128, _mm_stream_si128, _mm256_storeu_ps, _mm256_store_ps,
      _mm256_stream_ps, _mm256_storeu_pd, _mm256_store_pd, _mm256_stream_pd, _mm256_storeu_si256, _mm256_store_si256,
      _mm256_stream_si256, _mm512_storeu_ps, _mm512_store_ps, _mm512_stream_ps, _mm512_storenr_ps, _mm512_storeu_pd,
      _mm512_store_pd, _mm512_stream_pd, _mm512_storenr_pd, _mm512_storeu_si512, _mm512_store_epi32, _mm512_stream_si512,
      vst1q_f32, vec_sta, st, lanes4, lanes2, lanes24, lanes22, lanes224, lanes222, List.cons_append, List.nil_append,
      List.append_nil, bind, Option.bind, Int.add_assoc, Int.reduceAdd, Int.add_zero]

theorem store_aligned_law (E : FEnv) : StoreLaw 16 V.lanes (fun v p => store_aligned E v p) 16 :=
  storeOf (fun _ => rfl) fun v p ha => by
  have ha : aligned 4 p 16 = true := ha
  have a16_0 := assertAligned_ok (aligned_of_dvd (al' := 16) ha (by decide))
  have a16_4 := assertAligned_ok (aligned_add 4 (aligned_of_dvd (al' := 16) ha (by decide)) (by decide))
  have a16_8 := assertAligned_ok (aligned_add 8 (aligned_of_dvd (al' := 16) ha (by decide)) (by decide))
  have a16_12 := assertAligned_ok (aligned_add 12 (aligned_of_dvd (al' := 16) ha (by decide)) (by decide))
  change _ = some (st p [v.val0.x0, v.val0.x1, v.val0.x2, v.val0.x3, v.val1.x0, v.val1.x1, v.val1.x2, v.val1.x3, v.val2.x0,
      v.val2.x1, v.val2.x2, v.val2.x3, v.val3.x0, v.val3.x1, v.val3.x2, v.val3.x3])
  simp only [store_aligned, store, _mm_storeu_ps, _mm_store_ps, _mm_stream_ps, _mm_store_ss, _mm_storeu_pd, _mm_store_pd,
      _mm_stream_pd, _mm_storel_pd, _mm_storeh_pd, _mm_storeu_si128, _mm_store_si128, _mm_stream_si128, _mm256_storeu_ps,
      _mm256_store_ps, _mm256_stream_ps, _mm256_storeu_pd, _mm256_store_pd, _mm256_stream_pd, _mm256_storeu_si256,
      _mm256_store_si256, _mm256_stream_si256, _mm512_storeu_ps, _mm512_store_ps, _mm512_stream_ps, _mm512_storenr_ps,
      _mm512_storeu_pd, _mm512_store_pd, _mm512_stream_pd, _mm512_storenr_pd, _mm512_storeu_si512, _mm512_store_epi32,
      _mm512_stream_si512, vst1q_f32, vec_sta, st, lanes4, lanes2, lanes24, lanes22, lanes224, lanes222, List.cons_append,
      List.nil_append, List.append_nil, bind, Option.bind, Int.add_assoc, Int.reduceAdd, Int.add_zero, a16_0, a16_4, a16_8,
      a16_12]

theorem store_nt_law (E : FEnv) : StoreLaw 16 V.lanes (fun v p => store_nt E v p) 16 :=
  storeOf (fun _ => rfl) fun v p ha => by
  have ha : aligned 4 p 16 = true := ha
  have a16_0 := assertAligned_ok (aligned_of_dvd (al' := 16) ha (by decide))
  have a16_4 := assertAligned_ok (aligned_add 4 (aligned_of_dvd (al' := 16) ha (by decide)) (by decide))
  have a16_8 := assertAligned_ok (aligned_add 8 (aligned_of_dvd (al' := 16) ha (by decide)) (by decide))
  have a16_12 := assertAligned_ok (aligned_add 12 (aligned_of_dvd (al' := 16) ha (by decide)) (by decide))
  change _ = some (st p [v.val0.x0, v.val0.x1, v.val0.x2, v.val0.x3, v.val1.x0, v.val1.x1, v.val1.x2, v.val1.x3, v.val2.x0,
      v.val2.x1, v.val2.x2, v.val2.x3, v.val3.x0, v.val3.x1, v.val3.x2, v.val3.x3])
  simp only [store_nt, store, _mm_storeu_ps, _mm_store_ps, _mm_stream_ps, _mm_store_ss, _mm_storeu_pd, _mm_store_pd,
      _mm_stream_pd, _mm_storel_pd, _mm_storeh_pd, _mm_storeu_si128, _mm_store_si128, _mm_stream_si128, _mm256_storeu_ps,
      _mm256_store_ps, _mm256_stream_ps, _mm256_storeu_pd, _mm256_store_pd, _mm256_stream_pd, _mm256_storeu_si256,
      _mm256_store_si256, _mm256_stream_si256, _mm512_storeu_ps, _mm512_store_ps, _mm512_stream_ps, _mm512_storenr_ps,
      _mm512_storeu_pd, _mm512_store_pd, _mm512_stream_pd, _mm512_storenr_pd, _mm512_storeu_si512, _mm512_store_epi32,
      _mm512_stream_si512, vst1q_f32, vec_sta, st, lanes4, lanes2, lanes24, lanes22, lanes224, lanes222, List.cons_append,
      List.nil_append, List.append_nil, bind, Option.bind, Int.add_assoc, Int.reduceAdd, Int.add_zero, a16_0, a16_4, a16_8,
      a16_12]

theorem opStore_law (E : FEnv) : StoreLaw 16 V.lanes (fun v p => opStore E p v) 1 :=
  by
  intro m v p ha h
  obtain ⟨ws, m', h1, h2⟩ := store_law E m v p ha h
  exact ⟨ws, m', bindS h1 rfl, h2⟩

theorem gather_sse_law (E : FEnv) (v : V) : GatherLaw 16 V.lanes (fun m mo p o => gather_sse E m mo v p o) 1 true :=
  by
  intro m mo p o off g ha hn ho hg
  have ho := at16 ho
  have hg := all16 hg
  exact ⟨_, by simp only [gather_sse, _mm_loadu_ps, _mm_load_ps, _mm_loadu_pd, _mm_load_pd, _mm_loadu_si128, _mm_load_si128,
      _mm_load_ss, _mm_loadl_pd, _mm_loadh_pd, _mm256_loadu_ps, _mm256_load_ps, _mm256_loadu_pd, _mm256_load_pd,
      _mm256_loadu_si256, _mm256_load_si256, _mm512_loadu_ps, _mm512_load_ps, _mm512_loadu_pd, _mm512_load_pd,
      _mm512_loadu_si512, _mm512_load_epi32, vld1q_f32, vec_lda, ld16, ld8, ld2x, ld4, ld2, gath4, gath2x, _mm256_i32gather_ps,
      _mm256_i32gather_epi32, _mm256_i32gather_pd, _mm512_i32gather_ps, _mm512_i32gather_epi32, _mm512_i32gather_pd,
      _mm512_i32logather_pd, _mm512_permute4f128_epi32, SHORTVEC_INSERT_PS_AVX, SHORTVEC_INSERT_PS, gaddr44, gaddr88, bind,
      Option.bind, Int.add_assoc, Int.reduceAdd, Int.add_zero, ho, hg] <;> rfl, rfl⟩

theorem scatter_sse_law (E : FEnv) : ScatterLaw 16 V.lanes (fun mo v p o => scatter_sse E mo v p o) 1 :=
  by
  intro mo v p o off ha ho
  have ho := at16 ho
  simp only [scatter_sse, _mm_loadu_ps, _mm_load_ps, _mm_loadu_pd, _mm_load_pd, _mm_loadu_si128, _mm_load_si128, _mm_load_ss,
      _mm_loadl_pd, _mm_loadh_pd, _mm256_loadu_ps, _mm256_load_ps, _mm256_loadu_pd, _mm256_load_pd, _mm256_loadu_si256,
      _mm256_load_si256, _mm512_loadu_ps, _mm512_load_ps, _mm512_loadu_pd, _mm512_load_pd, _mm512_loadu_si512,
      _mm512_load_epi32, vld1q_f32, vec_lda, ld16, ld8, ld2x, ld4, ld2, _mm_storeu_ps, _mm_store_ps, _mm_stream_ps,
      _mm_store_ss, _mm_storeu_pd, _mm_store_pd, _mm_stream_pd, _mm_storel_pd, _mm_storeh_pd, _mm_storeu_si128, _mm_store_si128,
      _mm_stream_si128, _mm256_storeu_ps, _mm256_store_ps, _mm256_stream_ps, _mm256_storeu_pd, _mm256_store_pd,
      _mm256_stream_pd, _mm256_storeu_si256, _mm256_store_si256, _mm256_stream_si256, _mm512_storeu_ps, _mm512_store_ps,
      _mm512_stream_ps, _mm512_storenr_ps, _mm512_storeu_pd, _mm512_store_pd, _mm512_stream_pd, _mm512_storenr_pd,
      _mm512_storeu_si512, _mm512_store_epi32, _mm512_stream_si512, vst1q_f32, vec_sta, st, lanes4, lanes2, lanes24, lanes22,
      lanes224, lanes222, List.cons_append, List.nil_append, List.append_nil, scat, _mm512_i32scatter_ps,
      _mm512_i32scatter_epi32, _mm512_i32scatter_pd, _mm512_i32loscatter_pd, _mm512_permute4f128_epi32, bind, Option.bind,
      Int.add_assoc, Int.reduceAdd, Int.add_zero, ho, List.zipWith, gaddr44, gaddr88]
  rfl

theorem print_law (E : FEnv) : PrintLaw V.lanes (print E) :=
  fun _ => rfl

theorem opLt_law (E : FEnv) : CmpLaw V.lanes (MaskKind.vec : MaskKind V V) (fun a b => some (opLt E a b)) E.f32.lt :=
  fun _ _ => ⟨_, rfl, rfl⟩

theorem opLe_law (E : FEnv) : CmpLaw V.lanes (MaskKind.vec : MaskKind V V) (fun a b => some (opLe E a b)) E.f32.le :=
  fun _ _ => ⟨_, rfl, rfl⟩

theorem opEq_law (E : FEnv) : CmpLaw V.lanes (MaskKind.vec : MaskKind V V) (fun a b => some (opEq E a b)) E.f32.eq :=
  fun _ _ => ⟨_, rfl, rfl⟩

theorem opGt_law (E : FEnv) : CmpLaw V.lanes (MaskKind.vec : MaskKind V V) (fun a b => some (opGt E a b)) E.f32.gt :=
  fun _ _ => ⟨_, rfl, rfl⟩

theorem opGe_law (E : FEnv) : CmpLaw V.lanes (MaskKind.vec : MaskKind V V) (fun a b => some (opGe E a b)) E.f32.ge :=
  fun _ _ => ⟨_, rfl, rfl⟩

theorem blend_sse_law (E : FEnv) : BlendLaw 16 V.lanes (MaskKind.vec : MaskKind V V) (blend_sse E) :=
  by
  intro a m b bs hl hr
  obtain ⟨b0, b1, b2, b3, b4, b5, b6, b7, b8, b9, b10, b11, b12, b13, b14, b15, rfl⟩ := len16 hl
  change [m.val0.x0, m.val0.x1, m.val0.x2, m.val0.x3, m.val1.x0, m.val1.x1, m.val1.x2, m.val1.x3, m.val2.x0, m.val2.x1,
      m.val2.x2, m.val2.x3, m.val3.x0, m.val3.x1, m.val3.x2, m.val3.x3] = [pat 32 b0, pat 32 b1, pat 32 b2, pat 32 b3, pat 32
      b4, pat 32 b5, pat 32 b6, pat 32 b7, pat 32 b8, pat 32 b9, pat 32 b10, pat 32 b11, pat 32 b12, pat 32 b13, pat 32 b14, pat
      32 b15] at hr
  simp only [List.cons.injEq, and_true] at hr
  change [m.val0.x0 &&& b.val0.x0 ||| ~~~m.val0.x0 &&& a.val0.x0, m.val0.x1 &&& b.val0.x1 ||| ~~~m.val0.x1 &&& a.val0.x1,
      m.val0.x2 &&& b.val0.x2 ||| ~~~m.val0.x2 &&& a.val0.x2, m.val0.x3 &&& b.val0.x3 ||| ~~~m.val0.x3 &&& a.val0.x3, m.val1.x0
      &&& b.val1.x0 ||| ~~~m.val1.x0 &&& a.val1.x0, m.val1.x1 &&& b.val1.x1 ||| ~~~m.val1.x1 &&& a.val1.x1, m.val1.x2 &&&
      b.val1.x2 ||| ~~~m.val1.x2 &&& a.val1.x2, m.val1.x3 &&& b.val1.x3 ||| ~~~m.val1.x3 &&& a.val1.x3, m.val2.x0 &&& b.val2.x0
      ||| ~~~m.val2.x0 &&& a.val2.x0, m.val2.x1 &&& b.val2.x1 ||| ~~~m.val2.x1 &&& a.val2.x1, m.val2.x2 &&& b.val2.x2 |||
      ~~~m.val2.x2 &&& a.val2.x2, m.val2.x3 &&& b.val2.x3 ||| ~~~m.val2.x3 &&& a.val2.x3, m.val3.x0 &&& b.val3.x0 |||
      ~~~m.val3.x0 &&& a.val3.x0, m.val3.x1 &&& b.val3.x1 ||| ~~~m.val3.x1 &&& a.val3.x1, m.val3.x2 &&& b.val3.x2 |||
      ~~~m.val3.x2 &&& a.val3.x2, m.val3.x3 &&& b.val3.x3 ||| ~~~m.val3.x3 &&& a.val3.x3] = _
  simp only [hr, pat_sel] <;> rfl

theorem any_sse_law (E : FEnv) : AnyLaw 16 V.lanes (MaskKind.vec : MaskKind V V) (any_sse E) :=
  by
  intro m bs hl hr
  obtain ⟨b0, b1, b2, b3, b4, b5, b6, b7, b8, b9, b10, b11, b12, b13, b14, b15, rfl⟩ := len16 hl
  change [m.val0.x0, m.val0.x1, m.val0.x2, m.val0.x3, m.val1.x0, m.val1.x1, m.val1.x2, m.val1.x3, m.val2.x0, m.val2.x1,
      m.val2.x2, m.val2.x3, m.val3.x0, m.val3.x1, m.val3.x2, m.val3.x3] = [pat 32 b0, pat 32 b1, pat 32 b2, pat 32 b3, pat 32
      b4, pat 32 b5, pat 32 b6, pat 32 b7, pat 32 b8, pat 32 b9, pat 32 b10, pat 32 b11, pat 32 b12, pat 32 b13, pat 32 b14, pat
      32 b15] at hr
  simp only [List.cons.injEq, and_true] at hr
  dsimp only [any_sse]
  simp only [_mm_castps_si128, _mm_castpd_si128, _mm256_castps_si256, _mm256_castpd_si256, _mm512_castps_si512,
      _mm512_castpd_si512, _mm_or_ps, _mm_or_pd, _mm256_or_ps, _mm256_or_pd, _mm512_or_ps, _mm512_or_pd, R4.map2, R2.map2,
      R4.map, R2.map, _mm_shuffle_ps, _mm_shuffle_pd, _mm_testz_si128, _mm256_testz_si256, _mm512_test_epi64_mask,
      _mm256_extractf128_ps, _mm256_extractf128_pd, R4.sel, R2.sel, _mm_cvtss_f32, _mm_cvtsd_f64, pat_or, pat_and_self,
      truthy32, truthy64, pat_lo, pat_hi, pat32_eq_zero, pat32_ne_zero, zero_eq_b2i, b2i_eq_one, Nat.reduceMod,
      Nat.reduceShiftRight, Nat.reduceEqDiff, if_true, if_false, reduceIte, List.cons_append, List.nil_append, ofBools_ne_zero,
      List.any, List.any_cons, List.any_nil, id, Bool.not_and, Bool.not_not, Bool.or_self, Bool.or_false, Bool.not_or,
      Bool.or_assoc, hr]
  try ac_rfl

theorem opIndex_law (E : FEnv) : IndexLaw 16 V.lanes (fun v i => opIndex E v i) :=
  fun _ => ofAll16 ⟨rfl, rfl, rfl, rfl, rfl, rfl, rfl, rfl, rfl, rfl, rfl, rfl, rfl, rfl, rfl, rfl⟩

theorem gather_sse41_law (E : FEnv) (v : V) : GatherLaw 16 V.lanes (fun m mo p o => gather_sse41 E m mo v p o) 1 false :=
  by
  intro m mo p o off g ha hn ho hg
  have ho := at16 ho
  have hg := all16 hg
  have hn := all16 fun k hk => not_msb (hn rfl k hk)
  exact ⟨_, by simp only [gather_sse41, _mm_loadu_ps, _mm_load_ps, _mm_loadu_pd, _mm_load_pd, _mm_loadu_si128, _mm_load_si128,
      _mm_load_ss, _mm_loadl_pd, _mm_loadh_pd, _mm256_loadu_ps, _mm256_load_ps, _mm256_loadu_pd, _mm256_load_pd,
      _mm256_loadu_si256, _mm256_load_si256, _mm512_loadu_ps, _mm512_load_ps, _mm512_loadu_pd, _mm512_load_pd,
      _mm512_loadu_si512, _mm512_load_epi32, vld1q_f32, vec_lda, ld16, ld8, ld2x, ld4, ld2, gath4, gath2x, _mm256_i32gather_ps,
      _mm256_i32gather_epi32, _mm256_i32gather_pd, _mm512_i32gather_ps, _mm512_i32gather_epi32, _mm512_i32gather_pd,
      _mm512_i32logather_pd, _mm512_permute4f128_epi32, SHORTVEC_INSERT_PS_AVX, SHORTVEC_INSERT_PS, gaddr44, gaddr88, bind,
      Option.bind, Int.add_assoc, Int.reduceAdd, Int.add_zero, ho, hg, hn, Bool.false_eq_true, if_false] <;> rfl, rfl⟩

theorem scatter_sse41_law (E : FEnv) : ScatterLaw 16 V.lanes (fun mo v p o => scatter_sse41 E mo v p o) 1 :=
  by
  intro mo v p o off ha ho
  have ho := at16 ho
  simp only [scatter_sse41, _mm_loadu_ps, _mm_load_ps, _mm_loadu_pd, _mm_load_pd, _mm_loadu_si128, _mm_load_si128, _mm_load_ss,
      _mm_loadl_pd, _mm_loadh_pd, _mm256_loadu_ps, _mm256_load_ps, _mm256_loadu_pd, _mm256_load_pd, _mm256_loadu_si256,
      _mm256_load_si256, _mm512_loadu_ps, _mm512_load_ps, _mm512_loadu_pd, _mm512_load_pd, _mm512_loadu_si512,
      _mm512_load_epi32, vld1q_f32, vec_lda, ld16, ld8, ld2x, ld4, ld2, _mm_storeu_ps, _mm_store_ps, _mm_stream_ps,
      _mm_store_ss, _mm_storeu_pd, _mm_store_pd, _mm_stream_pd, _mm_storel_pd, _mm_storeh_pd, _mm_storeu_si128, _mm_store_si128,
      _mm_stream_si128, _mm256_storeu_ps, _mm256_store_ps, _mm256_stream_ps, _mm256_storeu_pd, _mm256_store_pd,
      _mm256_stream_pd, _mm256_storeu_si256, _mm256_store_si256, _mm256_stream_si256, _mm512_storeu_ps, _mm512_store_ps,
      _mm512_stream_ps, _mm512_storenr_ps, _mm512_storeu_pd, _mm512_store_pd, _mm512_stream_pd, _mm512_storenr_pd,
      _mm512_storeu_si512, _mm512_store_epi32, _mm512_stream_si512, vst1q_f32, vec_sta, st, lanes4, lanes2, lanes24, lanes22,
      lanes224, lanes222, List.cons_append, List.nil_append, List.append_nil, scat, _mm512_i32scatter_ps,
      _mm512_i32scatter_epi32, _mm512_i32scatter_pd, _mm512_i32loscatter_pd, _mm512_permute4f128_epi32, bind, Option.bind,
      Int.add_assoc, Int.reduceAdd, Int.add_zero, ho, List.zipWith, gaddr44, gaddr88]
  rfl

theorem blend_sse41_law (E : FEnv) : BlendLaw 16 V.lanes (MaskKind.vec : MaskKind V V) (blend_sse41 E) :=
  by
  intro a m b bs hl hr
  obtain ⟨b0, b1, b2, b3, b4, b5, b6, b7, b8, b9, b10, b11, b12, b13, b14, b15, rfl⟩ := len16 hl
  change [m.val0.x0, m.val0.x1, m.val0.x2, m.val0.x3, m.val1.x0, m.val1.x1, m.val1.x2, m.val1.x3, m.val2.x0, m.val2.x1,
      m.val2.x2, m.val2.x3, m.val3.x0, m.val3.x1, m.val3.x2, m.val3.x3] = [pat 32 b0, pat 32 b1, pat 32 b2, pat 32 b3, pat 32
      b4, pat 32 b5, pat 32 b6, pat 32 b7, pat 32 b8, pat 32 b9, pat 32 b10, pat 32 b11, pat 32 b12, pat 32 b13, pat 32 b14, pat
      32 b15] at hr
  simp only [List.cons.injEq, and_true] at hr
  change [if m.val0.x0.msb then b.val0.x0 else a.val0.x0, if m.val0.x1.msb then b.val0.x1 else a.val0.x1, if m.val0.x2.msb then
      b.val0.x2 else a.val0.x2, if m.val0.x3.msb then b.val0.x3 else a.val0.x3, if m.val1.x0.msb then b.val1.x0 else a.val1.x0,
      if m.val1.x1.msb then b.val1.x1 else a.val1.x1, if m.val1.x2.msb then b.val1.x2 else a.val1.x2, if m.val1.x3.msb then
      b.val1.x3 else a.val1.x3, if m.val2.x0.msb then b.val2.x0 else a.val2.x0, if m.val2.x1.msb then b.val2.x1 else a.val2.x1,
      if m.val2.x2.msb then b.val2.x2 else a.val2.x2, if m.val2.x3.msb then b.val2.x3 else a.val2.x3, if m.val3.x0.msb then
      b.val3.x0 else a.val3.x0, if m.val3.x1.msb then b.val3.x1 else a.val3.x1, if m.val3.x2.msb then b.val3.x2 else a.val3.x2,
      if m.val3.x3.msb then b.val3.x3 else a.val3.x3] = _
  simp only [hr, pat_msb32] <;> rfl

theorem any_sse41_law (E : FEnv) : AnyLaw 16 V.lanes (MaskKind.vec : MaskKind V V) (any_sse41 E) :=
  by
  intro m bs hl hr
  obtain ⟨b0, b1, b2, b3, b4, b5, b6, b7, b8, b9, b10, b11, b12, b13, b14, b15, rfl⟩ := len16 hl
  change [m.val0.x0, m.val0.x1, m.val0.x2, m.val0.x3, m.val1.x0, m.val1.x1, m.val1.x2, m.val1.x3, m.val2.x0, m.val2.x1,
      m.val2.x2, m.val2.x3, m.val3.x0, m.val3.x1, m.val3.x2, m.val3.x3] = [pat 32 b0, pat 32 b1, pat 32 b2, pat 32 b3, pat 32
      b4, pat 32 b5, pat 32 b6, pat 32 b7, pat 32 b8, pat 32 b9, pat 32 b10, pat 32 b11, pat 32 b12, pat 32 b13, pat 32 b14, pat
      32 b15] at hr
  simp only [List.cons.injEq, and_true] at hr
  dsimp only [any_sse41]
  simp only [_mm_castps_si128, _mm_castpd_si128, _mm256_castps_si256, _mm256_castpd_si256, _mm512_castps_si512,
      _mm512_castpd_si512, _mm_or_ps, _mm_or_pd, _mm256_or_ps, _mm256_or_pd, _mm512_or_ps, _mm512_or_pd, R4.map2, R2.map2,
      R4.map, R2.map, _mm_shuffle_ps, _mm_shuffle_pd, _mm_testz_si128, _mm256_testz_si256, _mm512_test_epi64_mask,
      _mm256_extractf128_ps, _mm256_extractf128_pd, R4.sel, R2.sel, _mm_cvtss_f32, _mm_cvtsd_f64, pat_or, pat_and_self,
      truthy32, truthy64, pat_lo, pat_hi, pat32_eq_zero, pat32_ne_zero, zero_eq_b2i, b2i_eq_one, Nat.reduceMod,
      Nat.reduceShiftRight, Nat.reduceEqDiff, if_true, if_false, reduceIte, List.cons_append, List.nil_append, ofBools_ne_zero,
      List.any, List.any_cons, List.any_nil, id, Bool.not_and, Bool.not_not, Bool.or_self, Bool.or_false, Bool.not_or,
      Bool.or_assoc, hr]
  try ac_rfl

end LFA.SV.SseFloat16

namespace LFA.SV.SseFloat32

theorem len_law : LenLaw 32 V.lanes :=
  fun _ => rfl

theorem bcast_law (E : FEnv) : BcastLaw 32 V.lanes (bcast E) :=
  fun _ => rfl

theorem opAdd_law (E : FEnv) : BinLaw V.lanes (fun a b => some (opAdd E a b)) (LaneOps.sse32.add E) :=
  binSome (fun _ _ => rfl)

theorem opSub_law (E : FEnv) : BinLaw V.lanes (fun a b => some (opSub E a b)) (LaneOps.sse32.sub E) :=
  binSome (fun _ _ => rfl)

theorem opMul_law (E : FEnv) : BinLaw V.lanes (fun a b => some (opMul E a b)) (LaneOps.sse32.mul E) :=
  binSome (fun _ _ => rfl)

theorem opDiv_law (E : FEnv) : BinLaw V.lanes (fun a b => some (opDiv E a b)) (LaneOps.sse32.div E) :=
  binSome (fun _ _ => rfl)

theorem opAddAssign_law (E : FEnv) : BinLaw V.lanes (fun a b => some (opAddAssign E a b)) (LaneOps.sse32.add E) :=
  binSome (fun _ _ => rfl)

theorem opSubAssign_law (E : FEnv) : BinLaw V.lanes (fun a b => some (opSubAssign E a b)) (LaneOps.sse32.sub E) :=
  binSome (fun _ _ => rfl)

theorem opMulAssign_law (E : FEnv) : BinLaw V.lanes (fun a b => some (opMulAssign E a b)) (LaneOps.sse32.mulA E) :=
  binSome (fun _ _ => rfl)

theorem opDivAssign_law (E : FEnv) : BinLaw V.lanes (fun a b => some (opDivAssign E a b)) (LaneOps.sse32.divA E) :=
  binSome (fun _ _ => rfl)

theorem ofSqrt_law (E : FEnv) : UnLaw V.lanes (fun a => some (ofSqrt E ⟨a⟩)) (LaneOps.sse32.sqrt E) :=
  unSome (fun _ => rfl)

theorem sqrt_law (E : FEnv) : UnLaw V.lanes (fun a => some (sqrt E a)) (LaneOps.sse32.sqrt E) :=
  unSome (fun _ => rfl)

theorem opDivSqrt_law (E : FEnv) : BinLaw V.lanes (fun a b => some (opDivSqrt E a ⟨b⟩)) (LaneOps.sse32.divSqrt E) :=
  binSome (fun _ _ => rfl)

theorem opDivAssignSqrt_law (E : FEnv) : BinLaw V.lanes (fun a b => some (opDivAssignSqrt E a ⟨b⟩)) (LaneOps.sse32.divSqrt E) :=
  binSome (fun _ _ => rfl)

theorem load_law (E : FEnv) (v : V) : LoadLaw 32 V.lanes (fun m p => load E m v p) 1 :=
  by
  intro m p g ha h
  have h := at32 h
  exact ⟨_, by simp only [load, load, _mm_loadu_ps, _mm_load_ps, _mm_loadu_pd, _mm_load_pd, _mm_loadu_si128, _mm_load_si128,
      _mm_load_ss, _mm_loadl_pd, _mm_loadh_pd, _mm256_loadu_ps, _mm256_load_ps, _mm256_loadu_pd, _mm256_load_pd,
      _mm256_loadu_si256, _mm256_load_si256, _mm512_loadu_ps, _mm512_load_ps, _mm512_loadu_pd, _mm512_load_pd,
      _mm512_loadu_si512, _mm512_load_epi32, vld1q_f32, vec_lda, ld16, ld8, ld2x, ld4, ld2, bind, Option.bind, Int.add_assoc,
      Int.reduceAdd, Int.add_zero, h] <;> rfl, rfl⟩

theorem load_aligned_law (E : FEnv) (v : V) : LoadLaw 32 V.lanes (fun m p => load_aligned E m v p) 16 :=
  by
  intro m p g ha h
  have ha : aligned 4 p 16 = true := ha
  have a16_0 := assertAligned_ok (aligned_of_dvd (al' := 16) ha (by decide))
  have a16_4 := assertAligned_ok (aligned_add 4 (aligned_of_dvd (al' := 16) ha (by decide)) (by decide))
  have a16_8 := assertAligned_ok (aligned_add 8 (aligned_of_dvd (al' := 16) ha (by decide)) (by decide))
  have a16_12 := assertAligned_ok (aligned_add 12 (aligned_of_dvd (al' := 16) ha (by decide)) (by decide))
  have a16_16 := assertAligned_ok (aligned_add 16 (aligned_of_dvd (al' := 16) ha (by decide)) (by decide))
  have a16_20 := assertAligned_ok (aligned_add 20 (aligned_of_dvd (al' := 16) ha (by decide)) (by decide))
  have a16_24 := assertAligned_ok (aligned_add 24 (aligned_of_dvd (al' := 16) ha (by decide)) (by decide))
  have a16_28 := assertAligned_ok (aligned_add 28 (aligned_of_dvd (al' := 16) ha (by decide)) (by decide))
  have h := at32 h
  exact ⟨_, by simp only [load_aligned, load, _mm_loadu_ps, _mm_load_ps, _mm_loadu_pd, _mm_load_pd, _mm_loadu_si128,
      _mm_load_si128, _mm_load_ss, _mm_loadl_pd, _mm_loadh_pd, _mm256_loadu_ps, _mm256_load_ps, _mm256_loadu_pd, _mm256_load_pd,
      _mm256_loadu_si256, _mm256_load_si256, _mm512_loadu_ps, _mm512_load_ps, _mm512_loadu_pd, _mm512_load_pd,
      _mm512_loadu_si512, _mm512_load_epi32, vld1q_f32, vec_lda, ld16, ld8, ld2x, ld4, ld2, bind, Option.bind, Int.add_assoc,
      Int.reduceAdd, Int.add_zero, h, a16_0, a16_4, a16_8, a16_12, a16_16, a16_20, a16_24, a16_28] <;> rfl, rfl⟩

theorem ofPtr_law (E : FEnv) : LoadLaw 32 V.lanes (fun m p => ofPtr E m p) 1 :=
  by
  intro m p g ha h
  obtain ⟨v, h1, h2⟩ := load_law E _ m p g ha h
  exact ⟨v, bindS h1 rfl, h2⟩

theorem ofList_law (E : FEnv) : LoadLaw 32 V.lanes (fun m p => ofList E m p) 1 :=
  by
  intro m p g ha h
  obtain ⟨v, h1, h2⟩ := load_law E _ m p g ha h
  exact ⟨v, bindS h1 rfl, h2⟩

theorem store_law (E : FEnv) : StoreLaw 32 V.lanes (fun v p => store E v p) 1 :=
  storeOf (fun _ => rfl) fun v p ha => by
  change _ = some (st p [v.val0.x0, v.val0.x1, v.val0.x2, v.val0.x3, v.val1.x0, v.val1.x1, v.val1.x2, v.val1.x3, v.val2.x0,
      v.val2.x1, v.val2.x2, v.val2.x3, v.val3.x0, v.val3.x1, v.val3.x2, v.val3.x3, v.val4.x0, v.val4.x1, v.val4.x2, v.val4.x3,
      v.val5.x0, v.val5.x1, v.val5.x2, v.val5.x3, v.val6.x0, v.val6.x1, v.val6.x2, v.val6.x3, v.val7.x0, v.val7.x1, v.val7.x2,
      v.val7.x3])
  simp only [store, store, _mm_storeu_ps, _mm_store_ps, _mm_stream_ps, _mm_store_ss, _mm_storeu_pd, _mm_store_pd, _mm_stream_pd,
      _mm_storel_pd, _mm_storeh_pd, _mm_storeu_si128, _mm_store_si128, _mm_stream_si128, _mm256_storeu_ps, _mm256_store_ps,
      _mm256_stream_ps, _mm256_storeu_pd, _mm256_store_pd, _mm256_stream_pd, _mm256_storeu_si256, _mm256_store_si256,
      _mm256_stream_si256, _mm512_storeu_ps, _mm512_store_ps, _mm512_stream_ps, _mm512_storenr_ps, _mm512_storeu_pd,
      _mm512_store_pd, _mm512_stream_pd, _mm512_storenr_pd, _mm512_storeu_si512, _mm512_store_epi32, _mm512_stream_si512,
      vst1q_f32, vec_sta, st, lanes4, lanes2, lanes24, lanes22, lanes224, lanes222, List.cons_append, List.nil_append,
      List.append_nil, bind, Option.bind, Int.add_assoc, Int.reduceAdd, Int.add_zero]

theorem store_aligned_law (E : FEnv) : StoreLaw 32 V.lanes (fun v p => store_aligned E v p) 16 :=
  storeOf (fun _ => rfl) fun v p ha => by
  have ha : aligned 4 p 16 = true := ha
  have a16_0 := assertAligned_ok (aligned_of_dvd (al' := 16) ha (by decide))
  have a16_4 := assertAligned_ok (aligned_add 4 (aligned_of_dvd (al' := 16) ha (by decide)) (by decide))
  have a16_8 := assertAligned_ok (aligned_add 8 (aligned_of_dvd (al' := 16) ha (by decide)) (by decide))
  have a16_12 := assertAligned_ok (aligned_add 12 (aligned_of_dvd (al' := 16) ha (by decide)) (by decide))
  have a16_16 := assertAligned_ok (aligned_add 16 (aligned_of_dvd (al' := 16) ha (by decide)) (by decide))
  have a16_20 := assertAligned_ok (aligned_add 20 (aligned_of_dvd (al' := 16) ha (by decide)) (by decide))
  have a16_24 := assertAligned_ok (aligned_add 24 (aligned_of_dvd (al' := 16) ha (by decide)) (by decide))
  have a16_28 := assertAligned_ok (aligned_add 28 (aligned_of_dvd (al' := 16) ha (by decide)) (by decide))
  change _ = some (st p [v.val0.x0, v.val0.x1, v.val0.x2, v.val0.x3, v.val1.x0, v.val1.x1, v.val1.x2, v.val1.x3, v.val2.x0,
      v.val2.x1, v.val2.x2, v.val2.x3, v.val3.x0, v.val3.x1, v.val3.x2, v.val3.x3, v.val4.x0, v.val4.x1, v.val4.x2, v.val4.x3,
      v.val5.x0, v.val5.x1, v.val5.x2, v.val5.x3, v.val6.x0, v.val6.x1, v.val6.x2, v.val6.x3, v.val7.x0, v.val7.x1, v.val7.x2,
      v.val7.x3])
  simp only [store_aligned, store, _mm_storeu_ps, _mm_store_ps, _mm_stream_ps, _mm_store_ss, _mm_storeu_pd, _mm_store_pd,
      _mm_stream_pd, _mm_storel_pd, _mm_storeh_pd, _mm_storeu_si128, _mm_store_si128, _mm_stream_si128, _mm256_storeu_ps,
      _mm256_store_ps, _mm256_stream_ps, _mm256_storeu_pd, _mm256_store_pd, _mm256_stream_pd, _mm256_storeu_si256,
      _mm256_store_si256, _mm256_stream_si256, _mm512_storeu_ps, _mm512_store_ps, _mm512_stream_ps, _mm512_storenr_ps,
      _mm512_storeu_pd, _mm512_store_pd, _mm512_stream_pd, _mm512_storenr_pd, _mm512_storeu_si512, _mm512_store_epi32,
      _mm512_stream_si512, vst1q_f32, vec_sta, st, lanes4, lanes2, lanes24, lanes22, lanes224, lanes222, List.cons_append,
      List.nil_append, List.append_nil, bind, Option.bind, Int.add_assoc, Int.reduceAdd, Int.add_zero, a16_0, a16_4, a16_8,
      a16_12, a16_16, a16_20, a16_24, a16_28]

theorem store_nt_law (E : FEnv) : StoreLaw 32 V.lanes (fun v p => store_nt E v p) 16 :=
  storeOf (fun _ => rfl) fun v p ha => by
  have ha : aligned 4 p 16 = true := ha
  have a16_0 := assertAligned_ok (aligned_of_dvd (al' := 16) ha (by decide))
  have a16_4 := assertAligned_ok (aligned_add 4 (aligned_of_dvd (al' := 16) ha (by decide)) (by decide))
  have a16_8 := assertAligned_ok (aligned_add 8 (aligned_of_dvd (al' := 16) ha (by decide)) (by decide))
  have a16_12 := assertAligned_ok (aligned_add 12 (aligned_of_dvd (al' := 16) ha (by decide)) (by decide))
  have a16_16 := assertAligned_ok (aligned_add 16 (aligned_of_dvd (al' := 16) ha (by decide)) (by decide))
  have a16_20 := assertAligned_ok (aligned_add 20 (aligned_of_dvd (al' := 16) ha (by decide)) (by decide))
  have a16_24 := assertAligned_ok (aligned_add 24 (aligned_of_dvd (al' := 16) ha (by decide)) (by decide))
  have a16_28 := assertAligned_ok (aligned_add 28 (aligned_of_dvd (al' := 16) ha (by decide)) (by decide))
  change _ = some (st p [v.val0.x0, v.val0.x1, v.val0.x2, v.val0.x3, v.val1.x0, v.val1.x1, v.val1.x2, v.val1.x3, v.val2.x0,
      v.val2.x1, v.val2.x2, v.val2.x3, v.val3.x0, v.val3.x1, v.val3.x2, v.val3.x3, v.val4.x0, v.val4.x1, v.val4.x2, v.val4.x3,
      v.val5.x0, v.val5.x1, v.val5.x2, v.val5.x3, v.val6.x0, v.val6.x1, v.val6.x2, v.val6.x3, v.val7.x0, v.val7.x1, v.val7.x2,
      v.val7.x3])
  simp only [store_nt, store, _mm_storeu_ps, _mm_store_ps, _mm_stream_ps, _mm_store_ss, _mm_storeu_pd, _mm_store_pd,
      _mm_stream_pd, _mm_storel_pd, _mm_storeh_pd, _mm_storeu_si128, _mm_store_si128, _mm_stream_si128, _mm256_storeu_ps,
      _mm256_store_ps, _mm256_stream_ps, _mm256_storeu_pd, _mm256_store_pd, _mm256_stream_pd, _mm256_storeu_si256,
      _mm256_store_si256, _mm256_stream_si256, _mm512_storeu_ps, _mm512_store_ps, _mm512_stream_ps, _mm512_storenr_ps,
      _mm512_storeu_pd, _mm512_store_pd, _mm512_stream_pd, _mm512_storenr_pd, _mm512_storeu_si512, _mm512_store_epi32,
      _mm512_stream_si512, vst1q_f32, vec_sta, st, lanes4, lanes2, lanes24, lanes22, lanes224, lanes222, List.cons_append,
      List.nil_append, List.append_nil, bind, Option.bind, Int.add_assoc, Int.reduceAdd, Int.add_zero, a16_0, a16_4, a16_8,
      a16_12, a16_16, a16_20, a16_24, a16_28]

theorem opStore_law (E : FEnv) : StoreLaw 32 V.lanes (fun v p => opStore E p v) 1 :=
  by
  intro m v p ha h
  obtain ⟨ws, m', h1, h2⟩ := store_law E m v p ha h
  exact ⟨ws, m', bindS h1 rfl, h2⟩

theorem gather_sse_law (E : FEnv) (v : V) : GatherLaw 32 V.lanes (fun m mo p o => gather_sse E m mo v p o) 1 true :=
  by
  intro m mo p o off g ha hn ho hg
  have ho := at32 ho
  have hg := all32 hg
  exact ⟨_, by simp only [gather_sse, _mm_loadu_ps, _mm_load_ps, _mm_loadu_pd, _mm_load_pd, _mm_loadu_si128, _mm_load_si128,
      _mm_load_ss, _mm_loadl_pd, _mm_loadh_pd, _mm256_loadu_ps, _mm256_load_ps, _mm256_loadu_pd, _mm256_load_pd,
      _mm256_loadu_si256, _mm256_load_si256, _mm512_loadu_ps, _mm512_load_ps, _mm512_loadu_pd, _mm512_load_pd,
      _mm512_loadu_si512, _mm512_load_epi32, vld1q_f32, vec_lda, ld16, ld8, ld2x, ld4, ld2, gath4, gath2x, _mm256_i32gather_ps,
      _mm256_i32gather_epi32, _mm256_i32gather_pd, _mm512_i32gather_ps, _mm512_i32gather_epi32, _mm512_i32gather_pd,
      _mm512_i32logather_pd, _mm512_permute4f128_epi32, SHORTVEC_INSERT_PS_AVX, SHORTVEC_INSERT_PS, gaddr44, gaddr88, bind,
      Option.bind, Int.add_assoc, Int.reduceAdd, Int.add_zero, ho, hg] <;> rfl, rfl⟩

theorem scatter_sse_law (E : FEnv) : ScatterLaw 32 V.lanes (fun mo v p o => scatter_sse E mo v p o) 1 :=
  by
  intro mo v p o off ha ho
  have ho := at32 ho
  simp only [scatter_sse, _mm_loadu_ps, _mm_load_ps, _mm_loadu_pd, _mm_load_pd, _mm_loadu_si128, _mm_load_si128, _mm_load_ss,
      _mm_loadl_pd, _mm_loadh_pd, _mm256_loadu_ps, _mm256_load_ps, _mm256_loadu_pd, _mm256_load_pd, _mm256_loadu_si256,
      _mm256_load_si256, _mm512_loadu_ps, _mm512_load_ps, _mm512_loadu_pd, _mm512_load_pd, _mm512_loadu_si512,
      _mm512_load_epi32, vld1q_f32, vec_lda, ld16, ld8, ld2x, ld4, ld2, _mm_storeu_ps, _mm_store_ps, _mm_stream_ps,
      _mm_store_ss, _mm_storeu_pd, _mm_store_pd, _mm_stream_pd, _mm_storel_pd, _mm_storeh_pd, _mm_storeu_si128, _mm_store_si128,
      _mm_stream_si128, _mm256_storeu_ps, _mm256_store_ps, _mm256_stream_ps, _mm256_storeu_pd, _mm256_store_pd,
      _mm256_stream_pd, _mm256_storeu_si256, _mm256_store_si256, _mm256_stream_si256, _mm512_storeu_ps, _mm512_store_ps,
      _mm512_stream_ps, _mm512_storenr_ps, _mm512_storeu_pd, _mm512_store_pd, _mm512_stream_pd, _mm512_storenr_pd,
      _mm512_storeu_si512, _mm512_store_epi32, _mm512_stream_si512, vst1q_f32, vec_sta, st, lanes4, lanes2, lanes24, lanes22,
      lanes224, lanes222, List.cons_append, List.nil_append, List.append_nil, scat, _mm512_i32scatter_ps,
      _mm512_i32scatter_epi32, _mm512_i32scatter_pd, _mm512_i32loscatter_pd, _mm512_permute4f128_epi32, bind, Option.bind,
      Int.add_assoc, Int.reduceAdd, Int.add_zero, ho, List.zipWith, gaddr44, gaddr88]
  rfl

theorem print_law (E : FEnv) : PrintLaw V.lanes (print E) :=
  fun _ => rfl

theorem opLt_law (E : FEnv) : CmpLaw V.lanes (MaskKind.vec : MaskKind V V) (fun a b => some (opLt E a b)) E.f32.lt :=
  fun _ _ => ⟨_, rfl, rfl⟩

theorem opLe_law (E : FEnv) : CmpLaw V.lanes (MaskKind.vec : MaskKind V V) (fun a b => some (opLe E a b)) E.f32.le :=
  fun _ _ => ⟨_, rfl, rfl⟩

theorem opEq_law (E : FEnv) : CmpLaw V.lanes (MaskKind.vec : MaskKind V V) (fun a b => some (opEq E a b)) E.f32.eq :=
  fun _ _ => ⟨_, rfl, rfl⟩

theorem opGt_law (E : FEnv) : CmpLaw V.lanes (MaskKind.vec : MaskKind V V) (fun a b => some (opGt E a b)) E.f32.gt :=
  fun _ _ => ⟨_, rfl, rfl⟩

theorem opGe_law (E : FEnv) : CmpLaw V.lanes (MaskKind.vec : MaskKind V V) (fun a b => some (opGe E a b)) E.f32.ge :=
  fun _ _ => ⟨_, rfl, rfl⟩

theorem blend_sse_law (E : FEnv) : BlendLaw 32 V.lanes (MaskKind.vec : MaskKind V V) (blend_sse E) :=
  by
  intro a m b bs hl hr
  obtain ⟨b0, b1, b2, b3, b4, b5, b6, b7, b8, b9, b10, b11, b12, b13, b14, b15, b16, b17, b18, b19, b20, b21, b22, b23, b24,
      b25, b26, b27, b28, b29, b30, b31, rfl⟩ := len32 hl
  change [m.val0.x0, m.val0.x1, m.val0.x2, m.val0.x3, m.val1.x0, m.val1.x1, m.val1.x2, m.val1.x3, m.val2.x0, m.val2.x1,
      m.val2.x2, m.val2.x3, m.val3.x0, m.val3.x1, m.val3.x2, m.val3.x3, m.val4.x0, m.val4.x1, m.val4.x2, m.val4.x3, m.val5.x0,
      m.val5.x1, m.val5.x2, m.val5.x3, m.val6.x0, m.val6.x1, m.val6.x2, m.val6.x3, m.val7.x0, m.val7.x1, m.val7.x2, m.val7.x3] =
      [pat 32 b0, pat 32 b1, pat 32 b2, pat 32 b3, pat 32 b4, pat 32 b5, pat 32 b6, pat 32 b7, pat 32 b8, pat 32 b9, pat 32 b10,
      pat 32 b11, pat 32 b12, pat 32 b13, pat 32 b14, pat 32 b15, pat 32 b16, pat 32 b17, pat 32 b18, pat 32 b19, pat 32 b20,
      pat 32 b21, pat 32 b22, pat 32 b23, pat 32 b24, pat 32 b25, pat 32 b26, pat 32 b27, pat 32 b28, pat 32 b29, pat 32 b30,
      pat 32 b31] at hr
  simp only [List.cons.injEq, and_true] at hr
  change [m.val0.x0 &&& b.val0.x0 ||| ~~~m.val0.x0 &&& a.val0.x0, m.val0.x1 &&& b.val0.x1 ||| ~~~m.val0.x1 &&& a.val0.x1,
      m.val0.x2 &&& b.val0.x2 ||| ~~~m.val0.x2 &&& a.val0.x2, m.val0.x3 &&& b.val0.x3 ||| ~~~m.val0.x3 &&& a.val0.x3, m.val1.x0
      &&& b.val1.x0 ||| ~~~m.val1.x0 &&& a.val1.x0, m.val1.x1 &&& b.val1.x1 ||| ~~~m.val1.x1 &&& a.val1.x1, m.val1.x2 &&&
      b.val1.x2 ||| ~~~m.val1.x2 &&& a.val1.x2, m.val1.x3 &&& b.val1.x3 ||| ~~~m.val1.x3 &&& a.val1.x3, m.val2.x0 &&& b.val2.x0
      ||| ~~~m.val2.x0 &&& a.val2.x0, m.val2.x1 &&& b.val2.x1 ||| ~~~m.val2.x1 &&& a.val2.x1, m.val2.x2 &&& b.val2.x2 |||
      ~~~m.val2.x2 &&& a.val2.x2, m.val2.x3 &&& b.val2.x3 ||| ~~~m.val2.x3 &&& a.val2.x3, m.val3.x0 &&& b.val3.x0 |||
      ~~~m.val3.x0 &&& a.val3.x0, m.val3.x1 &&& b.val3.x1 ||| ~~~m.val3.x1 &&& a.val3.x1, m.val3.x2 &&& b.val3.x2 |||
      ~~~m.val3.x2 &&& a.val3.x2, m.val3.x3 &&& b.val3.x3 ||| ~~~m.val3.x3 &&& a.val3.x3, m.val4.x0 &&& b.val4.x0 |||
      ~~~m.val4.x0 &&& a.val4.x0, m.val4.x1 &&& b.val4.x1 ||| ~~~m.val4.x1 &&& a.val4.x1, m.val4.x2 &&& b.val4.x2 |||
      ~~~m.val4.x2 &&& a.val4.x2, m.val4.x3 &&& b.val4.x3 ||| ~~~m.val4.x3 &&& a.val4.x3, m.val5.x0 &&& b.val5.x0 |||
      ~~~m.val5.x0 &&& a.val5.x0, m.val5.x1 &&& b.val5.x1 ||| ~~~m.val5.x1 &&& a.val5.x1, m.val5.x2 &&& b.val5.x2 |||
      ~~~m.val5.x2 &&& a.val5.x2, m.val5.x3 &&& b.val5.x3 ||| ~~~m.val5.x3 &&& a.val5.x3, m.val6.x0 &&& b.val6.x0 |||
      ~~~m.val6.x0 &&& a.val6.x0, m.val6.x1 &&& b.val6.x1 ||| ~~~m.val6.x1 &&& a.val6.x1, m.val6.x2 &&& b.val6.x2 |||
      ~~~m.val6.x2 &&& a.val6.x2, m.val6.x3 &&& b.val6.x3 ||| ~~~m.val6.x3 &&& a.val6.x3, m.val7.x0 &&& b.val7.x0 |||
      ~~~m.val7.x0 &&& a.val7.x0, m.val7.x1 &&& b.val7.x1 ||| ~~~m.val7.x1 &&& a.val7.x1, m.val7.x2 &&& b.val7.x2 |||
      ~~~m.val7.x2 &&& a.val7.x2, m.val7.x3 &&& b.val7.x3 ||| ~~~m.val7.x3 &&& a.val7.x3] = _
  simp only [hr, pat_sel] <;> rfl

theorem any_sse_law (E : FEnv) : AnyLaw 32 V.lanes (MaskKind.vec : MaskKind V V) (any_sse E) :=
  by
  intro m bs hl hr
  obtain ⟨b0, b1, b2, b3, b4, b5, b6, b7, b8, b9, b10, b11, b12, b13, b14, b15, b16, b17, b18, b19, b20, b21, b22, b23, b24,
      b25, b26, b27, b28, b29, b30, b31, rfl⟩ := len32 hl
  change [m.val0.x0, m.val0.x1, m.val0.x2, m.val0.x3, m.val1.x0, m.val1.x1, m.val1.x2, m.val1.x3, m.val2.x0, m.val2.x1,
      m.val2.x2, m.val2.x3, m.val3.x0, m.val3.x1, m.val3.x2, m.val3.x3, m.val4.x0, m.val4.x1, m.val4.x2, m.val4.x3, m.val5.x0,
      m.val5.x1, m.val5.x2, m.val5.x3, m.val6.x0, m.val6.x1, m.val6.x2, m.val6.x3, m.val7.x0, m.val7.x1, m.val7.x2, m.val7.x3] =
      [pat 32 b0, pat 32 b1, pat 32 b2, pat 32 b3, pat 32 b4, pat 32 b5, pat 32 b6, pat 32 b7, pat 32 b8, pat 32 b9, pat 32 b10,
      pat 32 b11, pat 32 b12, pat 32 b13, pat 32 b14, pat 32 b15, pat 32 b16, pat 32 b17, pat 32 b18, pat 32 b19, pat 32 b20,
      pat 32 b21, pat 32 b22, pat 32 b23, pat 32 b24, pat 32 b25, pat 32 b26, pat 32 b27, pat 32 b28, pat 32 b29, pat 32 b30,
      pat 32 b31] at hr
  simp only [List.cons.injEq, and_true] at hr
  dsimp only [any_sse]
  simp only [_mm_castps_si128, _mm_castpd_si128, _mm256_castps_si256, _mm256_castpd_si256, _mm512_castps_si512,
      _mm512_castpd_si512, _mm_or_ps, _mm_or_pd, _mm256_or_ps, _mm256_or_pd, _mm512_or_ps, _mm512_or_pd, R4.map2, R2.map2,
      R4.map, R2.map, _mm_shuffle_ps, _mm_shuffle_pd, _mm_testz_si128, _mm256_testz_si256, _mm512_test_epi64_mask,
      _mm256_extractf128_ps, _mm256_extractf128_pd, R4.sel, R2.sel, _mm_cvtss_f32, _mm_cvtsd_f64, pat_or, pat_and_self,
      truthy32, truthy64, pat_lo, pat_hi, pat32_eq_zero, pat32_ne_zero, zero_eq_b2i, b2i_eq_one, Nat.reduceMod,
      Nat.reduceShiftRight, Nat.reduceEqDiff, if_true, if_false, reduceIte, List.cons_append, List.nil_append, ofBools_ne_zero,
      List.any, List.any_cons, List.any_nil, id, Bool.not_and, Bool.not_not, Bool.or_self, Bool.or_false, Bool.not_or,
      Bool.or_assoc, hr]
  try ac_rfl

theorem opIndex_law (E : FEnv) : IndexLaw 32 V.lanes (fun v i => opIndex E v i) :=
  fun _ => ofAll32 ⟨rfl, rfl, rfl, rfl, rfl, rfl, rfl, rfl, rfl, rfl, rfl, rfl, rfl, rfl, rfl, rfl, rfl, rfl, rfl, rfl, rfl,
      rfl, rfl, rfl, rfl, rfl, rfl, rfl, rfl, rfl, rfl, rfl⟩

theorem gather_sse41_law (E : FEnv) (v : V) : GatherLaw 32 V.lanes (fun m mo p o => gather_sse41 E m mo v p o) 1 false :=
  by
  intro m mo p o off g ha hn ho hg
  have ho := at32 ho
  have hg := all32 hg
  have hn := all32 fun k hk => not_msb (hn rfl k hk)
  exact ⟨_, by simp only [gather_sse41, _mm_loadu_ps, _mm_load_ps, _mm_loadu_pd, _mm_load_pd, _mm_loadu_si128, _mm_load_si128,
      _mm_load_ss, _mm_loadl_pd, _mm_loadh_pd, _mm256_loadu_ps, _mm256_load_ps, _mm256_loadu_pd, _mm256_load_pd,
      _mm256_loadu_si256, _mm256_load_si256, _mm512_loadu_ps, _mm512_load_ps, _mm512_loadu_pd, _mm512_load_pd,
      _mm512_loadu_si512, _mm512_load_epi32, vld1q_f32, vec_lda, ld16, ld8, ld2x, ld4, ld2, gath4, gath2x, _mm256_i32gather_ps,
      _mm256_i32gather_epi32, _mm256_i32gather_pd, _mm512_i32gather_ps, _mm512_i32gather_epi32, _mm512_i32gather_pd,
      _mm512_i32logather_pd, _mm512_permute4f128_epi32, SHORTVEC_INSERT_PS_AVX, SHORTVEC_INSERT_PS, gaddr44, gaddr88, bind,
      Option.bind, Int.add_assoc, Int.reduceAdd, Int.add_zero, ho, hg, hn, Bool.false_eq_true, if_false] <;> rfl, rfl⟩

theorem scatter_sse41_law (E : FEnv) : ScatterLaw 32 V.lanes (fun mo v p o => scatter_sse41 E mo v p o) 1 :=
  by
  intro mo v p o off ha ho
  have ho := at32 ho
  simp only [scatter_sse41, _mm_loadu_ps, _mm_load_ps, _mm_loadu_pd, _mm_load_pd, _mm_loadu_si128, _mm_load_si128, _mm_load_ss,
      _mm_loadl_pd, _mm_loadh_pd, _mm256_loadu_ps, _mm256_load_ps, _mm256_loadu_pd, _mm256_load_pd, _mm256_loadu_si256,
      _mm256_load_si256, _mm512_loadu_ps, _mm512_load_ps, _mm512_loadu_pd, _mm512_load_pd, _mm512_loadu_si512,
      _mm512_load_epi32, vld1q_f32, vec_lda, ld16, ld8, ld2x, ld4, ld2, _mm_storeu_ps, _mm_store_ps, _mm_stream_ps,
      _mm_store_ss, _mm_storeu_pd, _mm_store_pd, _mm_stream_pd, _mm_storel_pd, _mm_storeh_pd, _mm_storeu_si128, _mm_store_si128,
      _mm_stream_si128, _mm256_storeu_ps, _mm256_store_ps, _mm256_stream_ps, _mm256_storeu_pd, _mm256_store_pd,
      _mm256_stream_pd, _mm256_storeu_si256, _mm256_store_si256, _mm256_stream_si256, _mm512_storeu_ps, _mm512_store_ps,
      _mm512_stream_ps, _mm512_storenr_ps, _mm512_storeu_pd, _mm512_store_pd, _mm512_stream_pd, _mm512_storenr_pd,
      _mm512_storeu_si512, _mm512_store_epi32, _mm512_stream_si512, vst1q_f32, vec_sta, st, lanes4, lanes2, lanes24, lanes22,
      lanes224, lanes222, List.cons_append, List.nil_append, List.append_nil, scat, _mm512_i32scatter_ps,
      _mm512_i32scatter_epi32, _mm512_i32scatter_pd, _mm512_i32loscatter_pd, _mm512_permute4f128_epi32, bind, Option.bind,
      Int.add_assoc, Int.reduceAdd, Int.add_zero, ho, List.zipWith, gaddr44, gaddr88]
  rfl

theorem blend_sse41_law (E : FEnv) : BlendLaw 32 V.lanes (MaskKind.vec : MaskKind V V) (blend_sse41 E) :=
  by
  intro a m b bs hl hr
  obtain ⟨b0, b1, b2, b3, b4, b5, b6, b7, b8, b9, b10, b11, b12, b13, b14, b15, b16, b17, b18, b19, b20, b21, b22, b23, b24,
      b25, b26, b27, b28, b29, b30, b31, rfl⟩ := len32 hl
  change [m.val0.x0, m.val0.x1, m.val0.x2, m.val0.x3, m.val1.x0, m.val1.x1, m.val1.x2, m.val1.x3, m.val2.x0, m.val2.x1,
      m.val2.x2, m.val2.x3, m.val3.x0, m.val3.x1, m.val3.x2, m.val3.x3, m.val4.x0, m.val4.x1, m.val4.x2, m.val4.x3, m.val5.x0,
      m.val5.x1, m.val5.x2, m.val5.x3, m.val6.x0, m.val6.x1, m.val6.x2, m.val6.x3, m.val7.x0, m.val7.x1, m.val7.x2, m.val7.x3] =
      [pat 32 b0, pat 32 b1, pat 32 b2, pat 32 b3, pat 32 b4, pat 32 b5, pat 32 b6, pat 32 b7, pat 32 b8, pat 32 b9, pat 32 b10,
      pat 32 b11, pat 32 b12, pat 32 b13, pat 32 b14, pat 32 b15, pat 32 b16, pat 32 b17, pat 32 b18, pat 32 b19, pat 32 b20,
      pat 32 b21, pat 32 b22, pat 32 b23, pat 32 b24, pat 32 b25, pat 32 b26, pat 32 b27, pat 32 b28, pat 32 b29, pat 32 b30,
      pat 32 b31] at hr
  simp only [List.cons.injEq, and_true] at hr
  change [if m.val0.x0.msb then b.val0.x0 else a.val0.x0, if m.val0.x1.msb then b.val0.x1 else a.val0.x1, if m.val0.x2.msb then
      b.val0.x2 else a.val0.x2, if m.val0.x3.msb then b.val0.x3 else a.val0.x3, if m.val1.x0.msb then b.val1.x0 else a.val1.x0,
      if m.val1.x1.msb then b.val1.x1 else a.val1.x1, if m.val1.x2.msb then b.val1.x2 else a.val1.x2, if m.val1.x3.msb then
      b.val1.x3 else a.val1.x3, if m.val2.x0.msb then b.val2.x0 else a.val2.x0, if m.val2.x1.msb then b.val2.x1 else a.val2.x1,
      if m.val2.x2.msb then b.val2.x2 else a.val2.x2, if m.val2.x3.msb then b.val2.x3 else a.val2.x3, if m.val3.x0.msb then
      b.val3.x0 else a.val3.x0, if m.val3.x1.msb then b.val3.x1 else a.val3.x1, if m.val3.x2.msb then b.val3.x2 else a.val3.x2,
      if m.val3.x3.msb then b.val3.x3 else a.val3.x3, if m.val4.x0.msb then b.val4.x0 else a.val4.x0, if m.val4.x1.msb then
      b.val4.x1 else a.val4.x1, if m.val4.x2.msb then b.val4.x2 else a.val4.x2, if m.val4.x3.msb then b.val4.x3 else a.val4.x3,
      if m.val5.x0.msb then b.val5.x0 else a.val5.x0, if m.val5.x1.msb then b.val5.x1 else a.val5.x1, if m.val5.x2.msb then
      b.val5.x2 else a.val5.x2, if m.val5.x3.msb then b.val5.x3 else a.val5.x3, if m.val6.x0.msb then b.val6.x0 else a.val6.x0,
      if m.val6.x1.msb then b.val6.x1 else a.val6.x1, if m.val6.x2.msb then b.val6.x2 else a.val6.x2, if m.val6.x3.msb then
      b.val6.x3 else a.val6.x3, if m.val7.x0.msb then b.val7.x0 else a.val7.x0, if m.val7.x1.msb then b.val7.x1 else a.val7.x1,
      if m.val7.x2.msb then b.val7.x2 else a.val7.x2, if m.val7.x3.msb then b.val7.x3 else a.val7.x3] = _
  simp only [hr, pat_msb32] <;> rfl

theorem any_sse41_law (E : FEnv) : AnyLaw 32 V.lanes (MaskKind.vec : MaskKind V V) (any_sse41 E) :=
  by
  intro m bs hl hr
  obtain ⟨b0, b1, b2, b3, b4, b5, b6, b7, b8, b9, b10, b11, b12, b13, b14, b15, b16, b17, b18, b19, b20, b21, b22, b23, b24,
      b25, b26, b27, b28, b29, b30, b31, rfl⟩ := len32 hl
  change [m.val0.x0, m.val0.x1, m.val0.x2, m.val0.x3, m.val1.x0, m.val1.x1, m.val1.x2, m.val1.x3, m.val2.x0, m.val2.x1,
      m.val2.x2, m.val2.x3, m.val3.x0, m.val3.x1, m.val3.x2, m.val3.x3, m.val4.x0, m.val4.x1, m.val4.x2, m.val4.x3, m.val5.x0,
      m.val5.x1, m.val5.x2, m.val5.x3, m.val6.x0, m.val6.x1, m.val6.x2, m.val6.x3, m.val7.x0, m.val7.x1, m.val7.x2, m.val7.x3] =
      [pat 32 b0, pat 32 b1, pat 32 b2, pat 32 b3, pat 32 b4, pat 32 b5, pat 32 b6, pat 32 b7, pat 32 b8, pat 32 b9, pat 32 b10,
      pat 32 b11, pat 32 b12, pat 32 b13, pat 32 b14, pat 32 b15, pat 32 b16, pat 32 b17, pat 32 b18, pat 32 b19, pat 32 b20,
      pat 32 b21, pat 32 b22, pat 32 b23, pat 32 b24, pat 32 b25, pat 32 b26, pat 32 b27, pat 32 b28, pat 32 b29, pat 32 b30,
      pat 32 b31] at hr
  simp only [List.cons.injEq, and_true] at hr
  dsimp only [any_sse41]
  simp only [_mm_castps_si128, _mm_castpd_si128, _mm256_castps_si256, _mm256_castpd_si256, _mm512_castps_si512,
      _mm512_castpd_si512, _mm_or_ps, _mm_or_pd, _mm256_or_ps, _mm256_or_pd, _mm512_or_ps, _mm512_or_pd, R4.map2, R2.map2,
      R4.map, R2.map, _mm_shuffle_ps, _mm_shuffle_pd, _mm_testz_si128, _mm256_testz_si256, _mm512_test_epi64_mask,
      _mm256_extractf128_ps, _mm256_extractf128_pd, R4.sel, R2.sel, _mm_cvtss_f32, _mm_cvtsd_f64, pat_or, pat_and_self,
      truthy32, truthy64, pat_lo, pat_hi, pat32_eq_zero, pat32_ne_zero, zero_eq_b2i, b2i_eq_one, Nat.reduceMod,
      Nat.reduceShiftRight, Nat.reduceEqDiff, if_true, if_false, reduceIte, List.cons_append, List.nil_append, ofBools_ne_zero,
      List.any, List.any_cons, List.any_nil, id, Bool.not_and, Bool.not_not, Bool.or_self, Bool.or_false, Bool.not_or,
      Bool.or_assoc, hr]
  try ac_rfl

end LFA.SV.SseFloat32
