/-
  Generated by tools/sv_proofs.py: the classes of SV/Avx512Int.lean obey the laws of SV/Spec.lean.
-/
import Verif.SV.Avx512Int
import Verif.SV.LaneOps
import Verif.SV.Unroll
set_option autoImplicit false
set_option linter.unusedSimpArgs false
set_option linter.unusedVariables false
set_option maxRecDepth 100000
open LFA.SV

namespace LFA.SV.Avx512Int16

theorem len_law : LenLaw 16 V.lanes :=
  fun _ => rfl

theorem bcast_law (E : FEnv) : BcastLaw 16 V.lanes (bcast E) :=
  fun _ => rfl

theorem opAdd_law (E : FEnv) : BinLaw V.lanes (fun a b => some (opAdd E a b)) ((LaneOps.intSimd FOps.rsqrt14 FOps.toIntR).add E)
    :=
  binOf (fun _ _ _ h => iadd_val h) (fun _ _ => rfl)

theorem opSub_law (E : FEnv) : BinLaw V.lanes (fun a b => some (opSub E a b)) ((LaneOps.intSimd FOps.rsqrt14 FOps.toIntR).sub E)
    :=
  binOf (fun _ _ _ h => isub_val h) (fun _ _ => rfl)

theorem opMul_law (E : FEnv) : BinLaw V.lanes (fun a b => some (opMul E a b)) ((LaneOps.intSimd FOps.rsqrt14 FOps.toIntR).mul E)
    :=
  binOf (fun _ _ _ h => imul_val h) (fun _ _ => rfl)

theorem opDiv_law (E : FEnv) : BinLaw V.lanes (fun a b => some (opDiv E a b)) ((LaneOps.intSimd FOps.rsqrt14 FOps.toIntR).div E)
    :=
  binSome (fun _ _ => rfl)

theorem opAddAssign_law (E : FEnv) : BinLaw V.lanes (fun a b => some (opAddAssign E a b)) ((LaneOps.intSimd FOps.rsqrt14
    FOps.toIntR).add E) :=
  binOf (fun _ _ _ h => iadd_val h) (fun _ _ => rfl)

theorem opSubAssign_law (E : FEnv) : BinLaw V.lanes (fun a b => some (opSubAssign E a b)) ((LaneOps.intSimd FOps.rsqrt14
    FOps.toIntR).sub E) :=
  binOf (fun _ _ _ h => isub_val h) (fun _ _ => rfl)

theorem opMulAssign_law (E : FEnv) : BinLaw V.lanes (fun a b => some (opMulAssign E a b)) ((LaneOps.intSimd FOps.rsqrt14
    FOps.toIntR).mulA E) :=
  binOf (fun _ _ _ h => imul_val h) (fun _ _ => rfl)

theorem opDivAssign_law (E : FEnv) : BinLaw V.lanes (fun a b => some (opDivAssign E a b)) ((LaneOps.intSimd FOps.rsqrt14
    FOps.toIntR).divA E) :=
  binSome (fun _ _ => rfl)

theorem ofSqrt_law (E : FEnv) : UnLaw V.lanes (fun a => some (ofSqrt E ⟨a⟩)) ((LaneOps.intSimd FOps.rsqrt14 FOps.toIntR).sqrt E)
    :=
  unSome (fun _ => rfl)

theorem sqrt_law (E : FEnv) : UnLaw V.lanes (fun a => some (sqrt E a)) ((LaneOps.intSimd FOps.rsqrt14 FOps.toIntR).sqrt E) :=
  unSome (fun _ => rfl)

theorem opDivSqrt_law (E : FEnv) : BinLaw V.lanes (fun a b => some (opDivSqrt E a ⟨b⟩)) ((LaneOps.intSimd FOps.rsqrt14
    FOps.toIntR).divSqrt E) :=
  binSome (fun _ _ => rfl)

theorem opDivAssignSqrt_law (E : FEnv) : BinLaw V.lanes (fun a b => some (opDivAssignSqrt E a ⟨b⟩)) ((LaneOps.intSimd
    FOps.rsqrt14 FOps.toIntR).divSqrt E) :=
  binSome (fun _ _ => rfl)

theorem load_law (E : FEnv) (v : V) : LoadLaw 16 V.lanes (fun m p => load E m v p) 1 :=
  by
  intro m p g ha h
  have h := at16 h
  exact ⟨_, by simp only [load, load, _mm_loadu_ps, _mm_load_ps, _mm_loadu_pd, _mm_load_pd, _mm_loadu_si128, _mm_load_si128,
      _mm_load_ss, _mm_loadl_pd, _mm_loadh_pd, _mm256_loadu_ps, _mm256_load_ps, _mm256_loadu_pd, _mm256_load_pd,
      _mm256_loadu_si256, _mm256_load_si256, _mm512_loadu_ps, _mm512_load_ps, _mm512_loadu_pd, _mm512_load_pd,
      _mm512_loadu_si512, _mm512_load_epi32, vld1q_f32, vec_lda, ld16, ld8, ld2x, ld4, ld2, bind, Option.bind, Int.add_assoc,
      Int.reduceAdd, Int.add_zero, h] <;> rfl, rfl⟩

theorem load_aligned_law (E : FEnv) (v : V) : LoadLaw 16 V.lanes (fun m p => load_aligned E m v p) 64 :=
  by
  intro m p g ha h
  have ha : aligned 4 p 64 = true := ha
  have a16_0 := assertAligned_ok (aligned_of_dvd (al' := 16) ha (by decide))
  have a16_4 := assertAligned_ok (aligned_add 4 (aligned_of_dvd (al' := 16) ha (by decide)) (by decide))
  have a16_8 := assertAligned_ok (aligned_add 8 (aligned_of_dvd (al' := 16) ha (by decide)) (by decide))
  have a16_12 := assertAligned_ok (aligned_add 12 (aligned_of_dvd (al' := 16) ha (by decide)) (by decide))
  have a32_0 := assertAligned_ok (aligned_of_dvd (al' := 32) ha (by decide))
  have a32_8 := assertAligned_ok (aligned_add 8 (aligned_of_dvd (al' := 32) ha (by decide)) (by decide))
  have a64_0 := assertAligned_ok (aligned_of_dvd (al' := 64) ha (by decide))
  have h := at16 h
  exact ⟨_, by simp only [load_aligned, load, _mm_loadu_ps, _mm_load_ps, _mm_loadu_pd, _mm_load_pd, _mm_loadu_si128,
      _mm_load_si128, _mm_load_ss, _mm_loadl_pd, _mm_loadh_pd, _mm256_loadu_ps, _mm256_load_ps, _mm256_loadu_pd, _mm256_load_pd,
      _mm256_loadu_si256, _mm256_load_si256, _mm512_loadu_ps, _mm512_load_ps, _mm512_loadu_pd, _mm512_load_pd,
      _mm512_loadu_si512, _mm512_load_epi32, vld1q_f32, vec_lda, ld16, ld8, ld2x, ld4, ld2, bind, Option.bind, Int.add_assoc,
      Int.reduceAdd, Int.add_zero, h, a16_0, a16_4, a16_8, a16_12, a32_0, a32_8, a64_0] <;> rfl, rfl⟩

theorem ofPtr_law (E : FEnv) : LoadLaw 16 V.lanes (fun m p => ofPtr E m p) 1 :=
  by
  intro m p g ha h
  obtain ⟨v, h1, h2⟩ := load_law E _ m p g ha h
  exact ⟨v, bindS h1 rfl, h2⟩

theorem ofList_law (E : FEnv) : LoadLaw 16 V.lanes (fun m p => ofList E m p) 1 :=
  by
  intro m p g ha h
  obtain ⟨v, h1, h2⟩ := load_law E _ m p g ha h
  exact ⟨v, bindS h1 rfl, h2⟩

theorem store_law (E : FEnv) : StoreLaw 16 V.lanes (fun v p => store E v p) 1 :=
  storeOf (fun _ => rfl) fun v p ha => by
  change _ = some (st p [v.val.x0.x0.x0, v.val.x0.x0.x1, v.val.x0.x0.x2, v.val.x0.x0.x3, v.val.x0.x1.x0, v.val.x0.x1.x1,
      v.val.x0.x1.x2, v.val.x0.x1.x3, v.val.x1.x0.x0, v.val.x1.x0.x1, v.val.x1.x0.x2, v.val.x1.x0.x3, v.val.x1.x1.x0,
      v.val.x1.x1.x1, v.val.x1.x1.x2, v.val.x1.x1.x3])
  simp only [store, store, _mm_storeu_ps, _mm_store_ps, _mm_stream_ps, _mm_store_ss, _mm_storeu_pd, _mm_store_pd, _mm_stream_pd,
      _mm_storel_pd, _mm_storeh_pd, _mm_storeu_si128, _mm_store_si128, _mm_stream_si128, _mm256_storeu_ps, _mm256_store_ps,
      _mm256_stream_ps, _mm256_storeu_pd, _mm256_store_pd, _mm256_stream_pd, _mm256_storeu_si256, _mm256_store_si256,
      _mm256_stream_si256, _mm512_storeu_ps, _mm512_store_ps, _mm512_stream_ps, _mm512_storenr_ps, _mm512_storeu_pd,
      _mm512_store_pd, _mm512_stream_pd, _mm512_storenr_pd, _mm512_storeu_si512, _mm512_store_epi32, _mm512_stream_si512,
      vst1q_f32, vec_sta, st, lanes4, lanes2, lanes24, lanes22, lanes224, lanes222, List.cons_append, List.nil_append,
      List.append_nil, bind, Option.bind, Int.add_assoc, Int.reduceAdd, Int.add_zero]

theorem store_aligned_law (E : FEnv) : StoreLaw 16 V.lanes (fun v p => store_aligned E v p) 64 :=
  storeOf (fun _ => rfl) fun v p ha => by
  have ha : aligned 4 p 64 = true := ha
  have a16_0 := assertAligned_ok (aligned_of_dvd (al' := 16) ha (by decide))
  have a16_4 := assertAligned_ok (aligned_add 4 (aligned_of_dvd (al' := 16) ha (by decide)) (by decide))
  have a16_8 := assertAligned_ok (aligned_add 8 (aligned_of_dvd (al' := 16) ha (by decide)) (by decide))
  have a16_12 := assertAligned_ok (aligned_add 12 (aligned_of_dvd (al' := 16) ha (by decide)) (by decide))
  have a32_0 := assertAligned_ok (aligned_of_dvd (al' := 32) ha (by decide))
  have a32_8 := assertAligned_ok (aligned_add 8 (aligned_of_dvd (al' := 32) ha (by decide)) (by decide))
  have a64_0 := assertAligned_ok (aligned_of_dvd (al' := 64) ha (by decide))
  change _ = some (st p [v.val.x0.x0.x0, v.val.x0.x0.x1, v.val.x0.x0.x2, v.val.x0.x0.x3, v.val.x0.x1.x0, v.val.x0.x1.x1,
      v.val.x0.x1.x2, v.val.x0.x1.x3, v.val.x1.x0.x0, v.val.x1.x0.x1, v.val.x1.x0.x2, v.val.x1.x0.x3, v.val.x1.x1.x0,
      v.val.x1.x1.x1, v.val.x1.x1.x2, v.val.x1.x1.x3])
  simp only [store_aligned, store, _mm_storeu_ps, _mm_store_ps, _mm_stream_ps, _mm_store_ss, _mm_storeu_pd, _mm_store_pd,
      _mm_stream_pd, _mm_storel_pd, _mm_storeh_pd, _mm_storeu_si128, _mm_store_si128, _mm_stream_si128, _mm256_storeu_ps,
      _mm256_store_ps, _mm256_stream_ps, _mm256_storeu_pd, _mm256_store_pd, _mm256_stream_pd, _mm256_storeu_si256,
      _mm256_store_si256, _mm256_stream_si256, _mm512_storeu_ps, _mm512_store_ps, _mm512_stream_ps, _mm512_storenr_ps,
      _mm512_storeu_pd, _mm512_store_pd, _mm512_stream_pd, _mm512_storenr_pd, _mm512_storeu_si512, _mm512_store_epi32,
      _mm512_stream_si512, vst1q_f32, vec_sta, st, lanes4, lanes2, lanes24, lanes22, lanes224, lanes222, List.cons_append,
      List.nil_append, List.append_nil, bind, Option.bind, Int.add_assoc, Int.reduceAdd, Int.add_zero, a16_0, a16_4, a16_8,
      a16_12, a32_0, a32_8, a64_0]

theorem store_nt_law (E : FEnv) : StoreLaw 16 V.lanes (fun v p => store_nt E v p) 64 :=
  storeOf (fun _ => rfl) fun v p ha => by
  have ha : aligned 4 p 64 = true := ha
  have a16_0 := assertAligned_ok (aligned_of_dvd (al' := 16) ha (by decide))
  have a16_4 := assertAligned_ok (aligned_add 4 (aligned_of_dvd (al' := 16) ha (by decide)) (by decide))
  have a16_8 := assertAligned_ok (aligned_add 8 (aligned_of_dvd (al' := 16) ha (by decide)) (by decide))
  have a16_12 := assertAligned_ok (aligned_add 12 (aligned_of_dvd (al' := 16) ha (by decide)) (by decide))
  have a32_0 := assertAligned_ok (aligned_of_dvd (al' := 32) ha (by decide))
  have a32_8 := assertAligned_ok (aligned_add 8 (aligned_of_dvd (al' := 32) ha (by decide)) (by decide))
  have a64_0 := assertAligned_ok (aligned_of_dvd (al' := 64) ha (by decide))
  change _ = some (st p [v.val.x0.x0.x0, v.val.x0.x0.x1, v.val.x0.x0.x2, v.val.x0.x0.x3, v.val.x0.x1.x0, v.val.x0.x1.x1,
      v.val.x0.x1.x2, v.val.x0.x1.x3, v.val.x1.x0.x0, v.val.x1.x0.x1, v.val.x1.x0.x2, v.val.x1.x0.x3, v.val.x1.x1.x0,
      v.val.x1.x1.x1, v.val.x1.x1.x2, v.val.x1.x1.x3])
  simp only [store_nt, store, _mm_storeu_ps, _mm_store_ps, _mm_stream_ps, _mm_store_ss, _mm_storeu_pd, _mm_store_pd,
      _mm_stream_pd, _mm_storel_pd, _mm_storeh_pd, _mm_storeu_si128, _mm_store_si128, _mm_stream_si128, _mm256_storeu_ps,
      _mm256_store_ps, _mm256_stream_ps, _mm256_storeu_pd, _mm256_store_pd, _mm256_stream_pd, _mm256_storeu_si256,
      _mm256_store_si256, _mm256_stream_si256, _mm512_storeu_ps, _mm512_store_ps, _mm512_stream_ps, _mm512_storenr_ps,
      _mm512_storeu_pd, _mm512_store_pd, _mm512_stream_pd, _mm512_storenr_pd, _mm512_storeu_si512, _mm512_store_epi32,
      _mm512_stream_si512, vst1q_f32, vec_sta, st, lanes4, lanes2, lanes24, lanes22, lanes224, lanes222, List.cons_append,
      List.nil_append, List.append_nil, bind, Option.bind, Int.add_assoc, Int.reduceAdd, Int.add_zero, a16_0, a16_4, a16_8,
      a16_12, a32_0, a32_8, a64_0]

theorem opStore_law (E : FEnv) : StoreLaw 16 V.lanes (fun v p => opStore E p v) 1 :=
  by
  intro m v p ha h
  obtain ⟨ws, m', h1, h2⟩ := store_law E m v p ha h
  exact ⟨ws, m', bindS h1 rfl, h2⟩

theorem gather_law (E : FEnv) (v : V) : GatherLaw 16 V.lanes (fun m mo p o => gather E m mo v p o) 1 true :=
  by
  intro m mo p o off g ha hn ho hg
  have ho := at16 ho
  have hg := all16 hg
  exact ⟨_, by simp only [gather, _mm_loadu_ps, _mm_load_ps, _mm_loadu_pd, _mm_load_pd, _mm_loadu_si128, _mm_load_si128,
      _mm_load_ss, _mm_loadl_pd, _mm_loadh_pd, _mm256_loadu_ps, _mm256_load_ps, _mm256_loadu_pd, _mm256_load_pd,
      _mm256_loadu_si256, _mm256_load_si256, _mm512_loadu_ps, _mm512_load_ps, _mm512_loadu_pd, _mm512_load_pd,
      _mm512_loadu_si512, _mm512_load_epi32, vld1q_f32, vec_lda, ld16, ld8, ld2x, ld4, ld2, gath4, gath2x, _mm256_i32gather_ps,
      _mm256_i32gather_epi32, _mm256_i32gather_pd, _mm512_i32gather_ps, _mm512_i32gather_epi32, _mm512_i32gather_pd,
      _mm512_i32logather_pd, _mm512_permute4f128_epi32, SHORTVEC_INSERT_PS_AVX, SHORTVEC_INSERT_PS, gaddr44, gaddr88, bind,
      Option.bind, Int.add_assoc, Int.reduceAdd, Int.add_zero, ho, hg] <;> rfl, rfl⟩

theorem scatter_law (E : FEnv) : ScatterLaw 16 V.lanes (fun mo v p o => scatter E mo v p o) 1 :=
  by
  intro mo v p o off ha ho
  have ho := at16 ho
  simp only [scatter, _mm_loadu_ps, _mm_load_ps, _mm_loadu_pd, _mm_load_pd, _mm_loadu_si128, _mm_load_si128, _mm_load_ss,
      _mm_loadl_pd, _mm_loadh_pd, _mm256_loadu_ps, _mm256_load_ps, _mm256_loadu_pd, _mm256_load_pd, _mm256_loadu_si256,
      _mm256_load_si256, _mm512_loadu_ps, _mm512_load_ps, _mm512_loadu_pd, _mm512_load_pd, _mm512_loadu_si512,
      _mm512_load_epi32, vld1q_f32, vec_lda, ld16, ld8, ld2x, ld4, ld2, _mm_storeu_ps, _mm_store_ps, _mm_stream_ps,
      _mm_store_ss, _mm_storeu_pd, _mm_store_pd, _mm_stream_pd, _mm_storel_pd, _mm_storeh_pd, _mm_storeu_si128, _mm_store_si128,
      _mm_stream_si128, _mm256_storeu_ps, _mm256_store_ps, _mm256_stream_ps, _mm256_storeu_pd, _mm256_store_pd,
      _mm256_stream_pd, _mm256_storeu_si256, _mm256_store_si256, _mm256_stream_si256, _mm512_storeu_ps, _mm512_store_ps,
      _mm512_stream_ps, _mm512_storenr_ps, _mm512_storeu_pd, _mm512_store_pd, _mm512_stream_pd, _mm512_storenr_pd,
      _mm512_storeu_si512, _mm512_store_epi32, _mm512_stream_si512, vst1q_f32, vec_sta, st, lanes4, lanes2, lanes24, lanes22,
      lanes224, lanes222, List.cons_append, List.nil_append, List.append_nil, scat, _mm512_i32scatter_ps,
      _mm512_i32scatter_epi32, _mm512_i32scatter_pd, _mm512_i32loscatter_pd, _mm512_permute4f128_epi32, bind, Option.bind,
      Int.add_assoc, Int.reduceAdd, Int.add_zero, ho, List.zipWith, gaddr44, gaddr88]
  rfl

theorem print_law (E : FEnv) : PrintLaw V.lanes (print E) :=
  fun _ => rfl

end LFA.SV.Avx512Int16

namespace LFA.SV.Avx512Int32

theorem len_law : LenLaw 32 V.lanes :=
  fun _ => rfl

theorem bcast_law (E : FEnv) : BcastLaw 32 V.lanes (bcast E) :=
  fun _ => rfl

theorem opAdd_law (E : FEnv) : BinLaw V.lanes (fun a b => some (opAdd E a b)) ((LaneOps.intSimd FOps.rsqrt14 FOps.toIntR).add E)
    :=
  binOf (fun _ _ _ h => iadd_val h) (fun _ _ => rfl)

theorem opSub_law (E : FEnv) : BinLaw V.lanes (fun a b => some (opSub E a b)) ((LaneOps.intSimd FOps.rsqrt14 FOps.toIntR).sub E)
    :=
  binOf (fun _ _ _ h => isub_val h) (fun _ _ => rfl)

theorem opMul_law (E : FEnv) : BinLaw V.lanes (fun a b => some (opMul E a b)) ((LaneOps.intSimd FOps.rsqrt14 FOps.toIntR).mul E)
    :=
  binOf (fun _ _ _ h => imul_val h) (fun _ _ => rfl)

theorem opDiv_law (E : FEnv) : BinLaw V.lanes (fun a b => some (opDiv E a b)) ((LaneOps.intSimd FOps.rsqrt14 FOps.toIntR).div E)
    :=
  binSome (fun _ _ => rfl)

theorem opAddAssign_law (E : FEnv) : BinLaw V.lanes (fun a b => some (opAddAssign E a b)) ((LaneOps.intSimd FOps.rsqrt14
    FOps.toIntR).add E) :=
  binOf (fun _ _ _ h => iadd_val h) (fun _ _ => rfl)

theorem opSubAssign_law (E : FEnv) : BinLaw V.lanes (fun a b => some (opSubAssign E a b)) ((LaneOps.intSimd FOps.rsqrt14
    FOps.toIntR).sub E) :=
  binOf (fun _ _ _ h => isub_val h) (fun _ _ => rfl)

theorem opMulAssign_law (E : FEnv) : BinLaw V.lanes (fun a b => some (opMulAssign E a b)) ((LaneOps.intSimd FOps.rsqrt14
    FOps.toIntR).mulA E) :=
  binOf (fun _ _ _ h => imul_val h) (fun _ _ => rfl)

theorem opDivAssign_law (E : FEnv) : BinLaw V.lanes (fun a b => some (opDivAssign E a b)) ((LaneOps.intSimd FOps.rsqrt14
    FOps.toIntR).divA E) :=
  binSome (fun _ _ => rfl)

theorem ofSqrt_law (E : FEnv) : UnLaw V.lanes (fun a => some (ofSqrt E ⟨a⟩)) ((LaneOps.intSimd FOps.rsqrt14 FOps.toIntR).sqrt E)
    :=
  unSome (fun _ => rfl)

theorem sqrt_law (E : FEnv) : UnLaw V.lanes (fun a => some (sqrt E a)) ((LaneOps.intSimd FOps.rsqrt14 FOps.toIntR).sqrt E) :=
  unSome (fun _ => rfl)

theorem opDivSqrt_law (E : FEnv) : BinLaw V.lanes (fun a b => some (opDivSqrt E a ⟨b⟩)) ((LaneOps.intSimd FOps.rsqrt14
    FOps.toIntR).divSqrt E) :=
  binSome (fun _ _ => rfl)

theorem opDivAssignSqrt_law (E : FEnv) : BinLaw V.lanes (fun a b => some (opDivAssignSqrt E a ⟨b⟩)) ((LaneOps.intSimd
    FOps.rsqrt14 FOps.toIntR).divSqrt E) :=
  binSome (fun _ _ => rfl)

theorem load_law (E : FEnv) (v : V) : LoadLaw 32 V.lanes (fun m p => load E m v p) 1 :=
  by
  intro m p g ha h
  have h := at32 h
  exact ⟨_, by simp only [load, load, _mm_loadu_ps, _mm_load_ps, _mm_loadu_pd, _mm_load_pd, _mm_loadu_si128, _mm_load_si128,
      _mm_load_ss, _mm_loadl_pd, _mm_loadh_pd, _mm256_loadu_ps, _mm256_load_ps, _mm256_loadu_pd, _mm256_load_pd,
      _mm256_loadu_si256, _mm256_load_si256, _mm512_loadu_ps, _mm512_load_ps, _mm512_loadu_pd, _mm512_load_pd,
      _mm512_loadu_si512, _mm512_load_epi32, vld1q_f32, vec_lda, ld16, ld8, ld2x, ld4, ld2, bind, Option.bind, Int.add_assoc,
      Int.reduceAdd, Int.add_zero, h] <;> rfl, rfl⟩

theorem load_aligned_law (E : FEnv) (v : V) : LoadLaw 32 V.lanes (fun m p => load_aligned E m v p) 64 :=
  by
  intro m p g ha h
  have ha : aligned 4 p 64 = true := ha
  have a16_0 := assertAligned_ok (aligned_of_dvd (al' := 16) ha (by decide))
  have a16_4 := assertAligned_ok (aligned_add 4 (aligned_of_dvd (al' := 16) ha (by decide)) (by decide))
  have a16_8 := assertAligned_ok (aligned_add 8 (aligned_of_dvd (al' := 16) ha (by decide)) (by decide))
  have a16_12 := assertAligned_ok (aligned_add 12 (aligned_of_dvd (al' := 16) ha (by decide)) (by decide))
  have a16_16 := assertAligned_ok (aligned_add 16 (aligned_of_dvd (al' := 16) ha (by decide)) (by decide))
  have a16_20 := assertAligned_ok (aligned_add 20 (aligned_of_dvd (al' := 16) ha (by decide)) (by decide))
  have a16_24 := assertAligned_ok (aligned_add 24 (aligned_of_dvd (al' := 16) ha (by decide)) (by decide))
  have a16_28 := assertAligned_ok (aligned_add 28 (aligned_of_dvd (al' := 16) ha (by decide)) (by decide))
  have a32_0 := assertAligned_ok (aligned_of_dvd (al' := 32) ha (by decide))
  have a32_8 := assertAligned_ok (aligned_add 8 (aligned_of_dvd (al' := 32) ha (by decide)) (by decide))
  have a32_16 := assertAligned_ok (aligned_add 16 (aligned_of_dvd (al' := 32) ha (by decide)) (by decide))
  have a32_24 := assertAligned_ok (aligned_add 24 (aligned_of_dvd (al' := 32) ha (by decide)) (by decide))
  have a64_0 := assertAligned_ok (aligned_of_dvd (al' := 64) ha (by decide))
  have a64_16 := assertAligned_ok (aligned_add 16 (aligned_of_dvd (al' := 64) ha (by decide)) (by decide))
  have h := at32 h
  exact ⟨_, by simp only [load_aligned, load, _mm_loadu_ps, _mm_load_ps, _mm_loadu_pd, _mm_load_pd, _mm_loadu_si128,
      _mm_load_si128, _mm_load_ss, _mm_loadl_pd, _mm_loadh_pd, _mm256_loadu_ps, _mm256_load_ps, _mm256_loadu_pd, _mm256_load_pd,
      _mm256_loadu_si256, _mm256_load_si256, _mm512_loadu_ps, _mm512_load_ps, _mm512_loadu_pd, _mm512_load_pd,
      _mm512_loadu_si512, _mm512_load_epi32, vld1q_f32, vec_lda, ld16, ld8, ld2x, ld4, ld2, bind, Option.bind, Int.add_assoc,
      Int.reduceAdd, Int.add_zero, h, a16_0, a16_4, a16_8, a16_12, a16_16, a16_20, a16_24, a16_28, a32_0, a32_8, a32_16, a32_24,
      a64_0, a64_16] <;> rfl, rfl⟩

theorem ofPtr_law (E : FEnv) : LoadLaw 32 V.lanes (fun m p => ofPtr E m p) 1 :=
  by
  intro m p g ha h
  obtain ⟨v, h1, h2⟩ := load_law E _ m p g ha h
  exact ⟨v, bindS h1 rfl, h2⟩

theorem ofList_law (E : FEnv) : LoadLaw 32 V.lanes (fun m p => ofList E m p) 1 :=
  by
  intro m p g ha h
  obtain ⟨v, h1, h2⟩ := load_law E _ m p g ha h
  exact ⟨v, bindS h1 rfl, h2⟩

theorem store_law (E : FEnv) : StoreLaw 32 V.lanes (fun v p => store E v p) 1 :=
  storeOf (fun _ => rfl) fun v p ha => by
  change _ = some (st p [v.val0.x0.x0.x0, v.val0.x0.x0.x1, v.val0.x0.x0.x2, v.val0.x0.x0.x3, v.val0.x0.x1.x0, v.val0.x0.x1.x1,
      v.val0.x0.x1.x2, v.val0.x0.x1.x3, v.val0.x1.x0.x0, v.val0.x1.x0.x1, v.val0.x1.x0.x2, v.val0.x1.x0.x3, v.val0.x1.x1.x0,
      v.val0.x1.x1.x1, v.val0.x1.x1.x2, v.val0.x1.x1.x3, v.val1.x0.x0.x0, v.val1.x0.x0.x1, v.val1.x0.x0.x2, v.val1.x0.x0.x3,
      v.val1.x0.x1.x0, v.val1.x0.x1.x1, v.val1.x0.x1.x2, v.val1.x0.x1.x3, v.val1.x1.x0.x0, v.val1.x1.x0.x1, v.val1.x1.x0.x2,
      v.val1.x1.x0.x3, v.val1.x1.x1.x0, v.val1.x1.x1.x1, v.val1.x1.x1.x2, v.val1.x1.x1.x3])
  simp only [store, store, _mm_storeu_ps, _mm_store_ps, _mm_stream_ps, _mm_store_ss, _mm_storeu_pd, _mm_store_pd, _mm_stream_pd,
      _mm_storel_pd, _mm_storeh_pd, _mm_storeu_si128, _mm_store_si128, _mm_stream_si128, _mm256_storeu_ps, _mm256_store_ps,
      _mm256_stream_ps, _mm256_storeu_pd, _mm256_store_pd, _mm256_stream_pd, _mm256_storeu_si256, _mm256_store_si256,
      _mm256_stream_si256, _mm512_storeu_ps, _mm512_store_ps, _mm512_stream_ps, _mm512_storenr_ps, _mm512_storeu_pd,
      _mm512_store_pd, _mm512_stream_pd, _mm512_storenr_pd, _mm512_storeu_si512, _mm512_store_epi32, _mm512_stream_si512,
      vst1q_f32, vec_sta, st, lanes4, lanes2, lanes24, lanes22, lanes224, lanes222, List.cons_append, List.nil_append,
      List.append_nil, bind, Option.bind, Int.add_assoc, Int.reduceAdd, Int.add_zero]

theorem store_aligned_law (E : FEnv) : StoreLaw 32 V.lanes (fun v p => store_aligned E v p) 64 :=
  storeOf (fun _ => rfl) fun v p ha => by
  have ha : aligned 4 p 64 = true := ha
  have a16_0 := assertAligned_ok (aligned_of_dvd (al' := 16) ha (by decide))
  have a16_4 := assertAligned_ok (aligned_add 4 (aligned_of_dvd (al' := 16) ha (by decide)) (by decide))
  have a16_8 := assertAligned_ok (aligned_add 8 (aligned_of_dvd (al' := 16) ha (by decide)) (by decide))
  have a16_12 := assertAligned_ok (aligned_add 12 (aligned_of_dvd (al' := 16) ha (by decide)) (by decide))
  have a16_16 := assertAligned_ok (aligned_add 16 (aligned_of_dvd (al' := 16) ha (by decide)) (by decide))
  have a16_20 := assertAligned_ok (aligned_add 20 (aligned_of_dvd (al' := 16) ha (by decide)) (by decide))
  have a16_24 := assertAligned_ok (aligned_add 24 (aligned_of_dvd (al' := 16) ha (by decide)) (by decide))
  have a16_28 := assertAligned_ok (aligned_add 28 (aligned_of_dvd (al' := 16) ha (by decide)) (by decide))
  have a32_0 := assertAligned_ok (aligned_of_dvd (al' := 32) ha (by decide))
  have a32_8 := assertAligned_ok (aligned_add 8 (aligned_of_dvd (al' := 32) ha (by decide)) (by decide))
  have a32_16 := assertAligned_ok (aligned_add 16 (aligned_of_dvd (al' := 32) ha (by decide)) (by decide))
  have a32_24 := assertAligned_ok (aligned_add 24 (aligned_of_dvd (al' := 32) ha (by decide)) (by decide))
  have a64_0 := assertAligned_ok (aligned_of_dvd (al' := 64) ha (by decide))
  have a64_16 := assertAligned_ok (aligned_add 16 (aligned_of_dvd (al' := 64) ha (by decide)) (by decide))
  change _ = some (st p [v.val0.x0.x0.x0, v.val0.x0.x0.x1, v.val0.x0.x0.x2, v.val0.x0.x0.x3, v.val0.x0.x1.x0, v.val0.x0.x1.x1,
      v.val0.x0.x1.x2, v.val0.x0.x1.x3, v.val0.x1.x0.x0, v.val0.x1.x0.x1, v.val0.x1.x0.x2, v.val0.x1.x0.x3, v.val0.x1.x1.x0,
      v.val0.x1.x1.x1, v.val0.x1.x1.x2, v.val0.x1.x1.x3, v.val1.x0.x0.x0, v.val1.x0.x0.x1, v.val1.x0.x0.x2, v.val1.x0.x0.x3,
      v.val1.x0.x1.x0, v.val1.x0.x1.x1, v.val1.x0.x1.x2, v.val1.x0.x1.x3, v.val1.x1.x0.x0, v.val1.x1.x0.x1, v.val1.x1.x0.x2,
      v.val1.x1.x0.x3, v.val1.x1.x1.x0, v.val1.x1.x1.x1, v.val1.x1.x1.x2, v.val1.x1.x1.x3])
  simp only [store_aligned, store, _mm_storeu_ps, _mm_store_ps, _mm_stream_ps, _mm_store_ss, _mm_storeu_pd, _mm_store_pd,
      _mm_stream_pd, _mm_storel_pd, _mm_storeh_pd, _mm_storeu_si128, _mm_store_si128, _mm_stream_si128, _mm256_storeu_ps,
      _mm256_store_ps, _mm256_stream_ps, _mm256_storeu_pd, _mm256_store_pd, _mm256_stream_pd, _mm256_storeu_si256,
      _mm256_store_si256, _mm256_stream_si256, _mm512_storeu_ps, _mm512_store_ps, _mm512_stream_ps, _mm512_storenr_ps,
      _mm512_storeu_pd, _mm512_store_pd, _mm512_stream_pd, _mm512_storenr_pd, _mm512_storeu_si512, _mm512_store_epi32,
      _mm512_stream_si512, vst1q_f32, vec_sta, st, lanes4, lanes2, lanes24, lanes22, lanes224, lanes222, List.cons_append,
      List.nil_append, List.append_nil, bind, Option.bind, Int.add_assoc, Int.reduceAdd, Int.add_zero, a16_0, a16_4, a16_8,
      a16_12, a16_16, a16_20, a16_24, a16_28, a32_0, a32_8, a32_16, a32_24, a64_0, a64_16]

theorem store_nt_law (E : FEnv) : StoreLaw 32 V.lanes (fun v p => store_nt E v p) 64 :=
  storeOf (fun _ => rfl) fun v p ha => by
  have ha : aligned 4 p 64 = true := ha
  have a16_0 := assertAligned_ok (aligned_of_dvd (al' := 16) ha (by decide))
  have a16_4 := assertAligned_ok (aligned_add 4 (aligned_of_dvd (al' := 16) ha (by decide)) (by decide))
  have a16_8 := assertAligned_ok (aligned_add 8 (aligned_of_dvd (al' := 16) ha (by decide)) (by decide))
  have a16_12 := assertAligned_ok (aligned_add 12 (aligned_of_dvd (al' := 16) ha (by decide)) (by decide))
  have a16_16 := assertAligned_ok (aligned_add 16 (aligned_of_dvd (al' := 16) ha (by decide)) (by decide))
  have a16_20 := assertAligned_ok (aligned_add 20 (aligned_of_dvd (al' := 16) ha (by decide)) (by decide))
  have a16_24 := assertAligned_ok (aligned_add 24 (aligned_of_dvd (al' := 16) ha (by decide)) (by decide))
  have a16_28 := assertAligned_ok (aligned_add 28 (aligned_of_dvd (al' := 16) ha (by decide)) (by decide))
  have a32_0 := assertAligned_ok (aligned_of_dvd (al' := 32) ha (by decide))
  have a32_8 := assertAligned_ok (aligned_add 8 (aligned_of_dvd (al' := 32) ha (by decide)) (by decide))
  have a32_16 := assertAligned_ok (aligned_add 16 (aligned_of_dvd (al' := 32) ha (by decide)) (by decide))
  have a32_24 := assertAligned_ok (aligned_add 24 (aligned_of_dvd (al' := 32) ha (by decide)) (by decide))
  have a64_0 := assertAligned_ok (aligned_of_dvd (al' := 64) ha (by decide))
  have a64_16 := assertAligned_ok (aligned_add 16 (aligned_of_dvd (al' := 64) ha (by decide)) (by decide))
  change _ = some (st p [v.val0.x0.x0.x0, v.val0.x0.x0.x1, v.val0.x0.x0.x2, v.val0.x0.x0.x3, v.val0.x0.x1.x0, v.val0.x0.x1.x1,
      v.val0.x0.x1.x2, v.val0.x0.x1.x3, v.val0.x1.x0.x0, v.val0.x1.x0.x1, v.val0.x1.x0.x2, v.val0.x1.x0.x3, v.val0.x1.x1.x0,
      v.val0.x1.x1.x1, v.val0.x1.x1.x2, v.val0.x1.x1.x3, v.val1.x0.x0.x0, v.val1.x0.x0.x1, v.val1.x0.x0.x2, v.val1.x0.x0.x3,
      v.val1.x0.x1.x0, v.val1.x0.x1.x1, v.val1.x0.x1.x2, v.val1.x0.x1.x3, v.val1.x1.x0.x0, v.val1.x1.x0.x1, v.val1.x1.x0.x2,
      v.val1.x1.x0.x3, v.val1.x1.x1.x0, v.val1.x1.x1.x1, v.val1.x1.x1.x2, v.val1.x1.x1.x3])
  simp only [store_nt, store, _mm_storeu_ps, _mm_store_ps, _mm_stream_ps, _mm_store_ss, _mm_storeu_pd, _mm_store_pd,
      _mm_stream_pd, _mm_storel_pd, _mm_storeh_pd, _mm_storeu_si128, _mm_store_si128, _mm_stream_si128, _mm256_storeu_ps,
      _mm256_store_ps, _mm256_stream_ps, _mm256_storeu_pd, _mm256_store_pd, _mm256_stream_pd, _mm256_storeu_si256,
      _mm256_store_si256, _mm256_stream_si256, _mm512_storeu_ps, _mm512_store_ps, _mm512_stream_ps, _mm512_storenr_ps,
      _mm512_storeu_pd, _mm512_store_pd, _mm512_stream_pd, _mm512_storenr_pd, _mm512_storeu_si512, _mm512_store_epi32,
      _mm512_stream_si512, vst1q_f32, vec_sta, st, lanes4, lanes2, lanes24, lanes22, lanes224, lanes222, List.cons_append,
      List.nil_append, List.append_nil, bind, Option.bind, Int.add_assoc, Int.reduceAdd, Int.add_zero, a16_0, a16_4, a16_8,
      a16_12, a16_16, a16_20, a16_24, a16_28, a32_0, a32_8, a32_16, a32_24, a64_0, a64_16]

theorem opStore_law (E : FEnv) : StoreLaw 32 V.lanes (fun v p => opStore E p v) 1 :=
  by
  intro m v p ha h
  obtain ⟨ws, m', h1, h2⟩ := store_law E m v p ha h
  exact ⟨ws, m', bindS h1 rfl, h2⟩

theorem gather_law (E : FEnv) (v : V) : GatherLaw 32 V.lanes (fun m mo p o => gather E m mo v p o) 1 true :=
  by
  intro m mo p o off g ha hn ho hg
  have ho := at32 ho
  have hg := all32 hg
  exact ⟨_, by simp only [gather, _mm_loadu_ps, _mm_load_ps, _mm_loadu_pd, _mm_load_pd, _mm_loadu_si128, _mm_load_si128,
      _mm_load_ss, _mm_loadl_pd, _mm_loadh_pd, _mm256_loadu_ps, _mm256_load_ps, _mm256_loadu_pd, _mm256_load_pd,
      _mm256_loadu_si256, _mm256_load_si256, _mm512_loadu_ps, _mm512_load_ps, _mm512_loadu_pd, _mm512_load_pd,
      _mm512_loadu_si512, _mm512_load_epi32, vld1q_f32, vec_lda, ld16, ld8, ld2x, ld4, ld2, gath4, gath2x, _mm256_i32gather_ps,
      _mm256_i32gather_epi32, _mm256_i32gather_pd, _mm512_i32gather_ps, _mm512_i32gather_epi32, _mm512_i32gather_pd,
      _mm512_i32logather_pd, _mm512_permute4f128_epi32, SHORTVEC_INSERT_PS_AVX, SHORTVEC_INSERT_PS, gaddr44, gaddr88, bind,
      Option.bind, Int.add_assoc, Int.reduceAdd, Int.add_zero, ho, hg] <;> rfl, rfl⟩

theorem scatter_law (E : FEnv) : ScatterLaw 32 V.lanes (fun mo v p o => scatter E mo v p o) 1 :=
  by
  intro mo v p o off ha ho
  have ho := at32 ho
  simp only [scatter, _mm_loadu_ps, _mm_load_ps, _mm_loadu_pd, _mm_load_pd, _mm_loadu_si128, _mm_load_si128, _mm_load_ss,
      _mm_loadl_pd, _mm_loadh_pd, _mm256_loadu_ps, _mm256_load_ps, _mm256_loadu_pd, _mm256_load_pd, _mm256_loadu_si256,
      _mm256_load_si256, _mm512_loadu_ps, _mm512_load_ps, _mm512_loadu_pd, _mm512_load_pd, _mm512_loadu_si512,
      _mm512_load_epi32, vld1q_f32, vec_lda, ld16, ld8, ld2x, ld4, ld2, _mm_storeu_ps, _mm_store_ps, _mm_stream_ps,
      _mm_store_ss, _mm_storeu_pd, _mm_store_pd, _mm_stream_pd, _mm_storel_pd, _mm_storeh_pd, _mm_storeu_si128, _mm_store_si128,
      _mm_stream_si128, _mm256_storeu_ps, _mm256_store_ps, _mm256_stream_ps, _mm256_storeu_pd, _mm256_store_pd,
      _mm256_stream_pd, _mm256_storeu_si256, _mm256_store_si256, _mm256_stream_si256, _mm512_storeu_ps, _mm512_store_ps,
      _mm512_stream_ps, _mm512_storenr_ps, _mm512_storeu_pd, _mm512_store_pd, _mm512_stream_pd, _mm512_storenr_pd,
      _mm512_storeu_si512, _mm512_store_epi32, _mm512_stream_si512, vst1q_f32, vec_sta, st, lanes4, lanes2, lanes24, lanes22,
      lanes224, lanes222, List.cons_append, List.nil_append, List.append_nil, scat, _mm512_i32scatter_ps,
      _mm512_i32scatter_epi32, _mm512_i32scatter_pd, _mm512_i32loscatter_pd, _mm512_permute4f128_epi32, bind, Option.bind,
      Int.add_assoc, Int.reduceAdd, Int.add_zero, ho, List.zipWith, gaddr44, gaddr88]
  rfl

theorem print_law (E : FEnv) : PrintLaw V.lanes (print E) :=
  fun _ => rfl

end LFA.SV.Avx512Int32
