/-
  Generated by tools/sv_proofs.py: the classes of SV/MicDouble.lean obey the laws of SV/Spec.lean.
-/
import Verif.SV.MicDouble
import Verif.SV.LaneOps
import Verif.SV.Unroll
set_option autoImplicit false
set_option linter.unusedSimpArgs false
set_option linter.unusedVariables false
set_option maxRecDepth 100000
open LFA.SV

namespace LFA.SV.MicDouble8

theorem len_law : LenLaw 8 V.lanes :=
  fun _ => rfl

theorem bcast_law (E : FEnv) : BcastLaw 8 V.lanes (bcast E) :=
  fun _ => rfl

theorem opAdd_law (E : FEnv) : BinLaw V.lanes (fun a b => some (opAdd E a b)) ((LaneOps.ieee FEnv.f64).add E) :=
  binSome (fun _ _ => rfl)

theorem opSub_law (E : FEnv) : BinLaw V.lanes (fun a b => some (opSub E a b)) ((LaneOps.ieee FEnv.f64).sub E) :=
  binSome (fun _ _ => rfl)

theorem opMul_law (E : FEnv) : BinLaw V.lanes (fun a b => some (opMul E a b)) ((LaneOps.ieee FEnv.f64).mul E) :=
  binSome (fun _ _ => rfl)

theorem opDiv_law (E : FEnv) : BinLaw V.lanes (fun a b => some (opDiv E a b)) ((LaneOps.ieee FEnv.f64).div E) :=
  binSome (fun _ _ => rfl)

theorem opAddAssign_law (E : FEnv) : BinLaw V.lanes (fun a b => some (opAddAssign E a b)) ((LaneOps.ieee FEnv.f64).add E) :=
  binSome (fun _ _ => rfl)

theorem opSubAssign_law (E : FEnv) : BinLaw V.lanes (fun a b => some (opSubAssign E a b)) ((LaneOps.ieee FEnv.f64).sub E) :=
  binSome (fun _ _ => rfl)

theorem opMulAssign_law (E : FEnv) : BinLaw V.lanes (fun a b => some (opMulAssign E a b)) ((LaneOps.ieee FEnv.f64).mulA E) :=
  binSome (fun _ _ => rfl)

theorem opDivAssign_law (E : FEnv) : BinLaw V.lanes (fun a b => some (opDivAssign E a b)) ((LaneOps.ieee FEnv.f64).divA E) :=
  binSome (fun _ _ => rfl)

theorem sqrtFn_law (E : FEnv) : UnLaw V.lanes (fun a => some (sqrtFn E a)) ((LaneOps.ieee FEnv.f64).sqrt E) :=
  unSome (fun _ => rfl)

theorem sqrt_law (E : FEnv) : UnLaw V.lanes (fun a => some (sqrt E a)) ((LaneOps.ieee FEnv.f64).sqrt E) :=
  unSome (fun _ => rfl)

theorem load_law (E : FEnv) (v : V) : LoadLaw 8 V.lanes (fun m p => load E m v p) 1 :=
  by
  intro m p g ha h
  obtain ⟨b0, l0, u0⟩ := micLoad8 (m := m) (a := v.val) (p := p + 0) (q := p + 8)
    (g := fun k => g (0 + k)) (by omega) fun k hk => by
      rw [← h (0 + k) (by omega)]; congr 1; push_cast; omega
  exact ⟨_, bindS l0 <| bindS u0 <| rfl, rfl⟩

theorem load_aligned_law (E : FEnv) (v : V) : LoadLaw 8 V.lanes (fun m p => load_aligned E m v p) 64 :=
  by
  intro m p g ha h
  have ha : aligned 8 p 64 = true := ha
  have a16_0 := assertAligned_ok (aligned_of_dvd (al' := 16) ha (by decide))
  have a16_2 := assertAligned_ok (aligned_add 2 (aligned_of_dvd (al' := 16) ha (by decide)) (by decide))
  have a16_4 := assertAligned_ok (aligned_add 4 (aligned_of_dvd (al' := 16) ha (by decide)) (by decide))
  have a16_6 := assertAligned_ok (aligned_add 6 (aligned_of_dvd (al' := 16) ha (by decide)) (by decide))
  have a32_0 := assertAligned_ok (aligned_of_dvd (al' := 32) ha (by decide))
  have a32_4 := assertAligned_ok (aligned_add 4 (aligned_of_dvd (al' := 32) ha (by decide)) (by decide))
  have a64_0 := assertAligned_ok (aligned_of_dvd (al' := 64) ha (by decide))
  have h := at8 h
  exact ⟨_, by simp only [load_aligned, load, _mm_loadu_ps, _mm_load_ps, _mm_loadu_pd, _mm_load_pd, _mm_loadu_si128,
      _mm_load_si128, _mm_load_ss, _mm_loadl_pd, _mm_loadh_pd, _mm256_loadu_ps, _mm256_load_ps, _mm256_loadu_pd, _mm256_load_pd,
      _mm256_loadu_si256, _mm256_load_si256, _mm512_loadu_ps, _mm512_load_ps, _mm512_loadu_pd, _mm512_load_pd,
      _mm512_loadu_si512, _mm512_load_epi32, vld1q_f32, vec_lda, ld16, ld8, ld2x, ld4, ld2, bind, Option.bind, Int.add_assoc,
      Int.reduceAdd, Int.add_zero, h, a16_0, a16_2, a16_4, a16_6, a32_0, a32_4, a64_0] <;> rfl, rfl⟩

theorem ofPtr_law (E : FEnv) : LoadLaw 8 V.lanes (fun m p => ofPtr E m p) 1 :=
  by
  intro m p g ha h
  obtain ⟨v, h1, h2⟩ := load_law E _ m p g ha h
  exact ⟨v, bindS h1 rfl, h2⟩

theorem ofList_law (E : FEnv) : LoadLaw 8 V.lanes (fun m p => ofList E m p) 1 :=
  by
  intro m p g ha h
  obtain ⟨v, h1, h2⟩ := load_law E _ m p g ha h
  exact ⟨v, bindS h1 rfl, h2⟩

theorem store_law (E : FEnv) : StoreLaw 8 V.lanes (fun v p => store E v p) 1 :=
  storeOfPerm (fun _ => rfl) fun v p _ => ⟨_, rfl, by
    have e0 := micStore8 (p := p + 0) (q := p + 8) (a := v.val) (by omega)
    change List.Perm _ (st p (lanes v.val))
    have e := e0
    simp only [st_app8, Int.add_assoc, Int.reduceAdd, Int.add_zero, List.append_assoc] at e ⊢
    exact e⟩

theorem store_aligned_law (E : FEnv) : StoreLaw 8 V.lanes (fun v p => store_aligned E v p) 64 :=
  storeOf (fun _ => rfl) fun v p ha => by
  have ha : aligned 8 p 64 = true := ha
  have a16_0 := assertAligned_ok (aligned_of_dvd (al' := 16) ha (by decide))
  have a16_2 := assertAligned_ok (aligned_add 2 (aligned_of_dvd (al' := 16) ha (by decide)) (by decide))
  have a16_4 := assertAligned_ok (aligned_add 4 (aligned_of_dvd (al' := 16) ha (by decide)) (by decide))
  have a16_6 := assertAligned_ok (aligned_add 6 (aligned_of_dvd (al' := 16) ha (by decide)) (by decide))
  have a32_0 := assertAligned_ok (aligned_of_dvd (al' := 32) ha (by decide))
  have a32_4 := assertAligned_ok (aligned_add 4 (aligned_of_dvd (al' := 32) ha (by decide)) (by decide))
  have a64_0 := assertAligned_ok (aligned_of_dvd (al' := 64) ha (by decide))
  change _ = some (st p [v.val.x0.x0.x0, v.val.x0.x0.x1, v.val.x0.x1.x0, v.val.x0.x1.x1, v.val.x1.x0.x0, v.val.x1.x0.x1,
      v.val.x1.x1.x0, v.val.x1.x1.x1])
  simp only [store_aligned, store, _mm_storeu_ps, _mm_store_ps, _mm_stream_ps, _mm_store_ss, _mm_storeu_pd, _mm_store_pd,
      _mm_stream_pd, _mm_storel_pd, _mm_storeh_pd, _mm_storeu_si128, _mm_store_si128, _mm_stream_si128, _mm256_storeu_ps,
      _mm256_store_ps, _mm256_stream_ps, _mm256_storeu_pd, _mm256_store_pd, _mm256_stream_pd, _mm256_storeu_si256,
      _mm256_store_si256, _mm256_stream_si256, _mm512_storeu_ps, _mm512_store_ps, _mm512_stream_ps, _mm512_storenr_ps,
      _mm512_storeu_pd, _mm512_store_pd, _mm512_stream_pd, _mm512_storenr_pd, _mm512_storeu_si512, _mm512_store_epi32,
      _mm512_stream_si512, vst1q_f32, vec_sta, st, lanes4, lanes2, lanes24, lanes22, lanes224, lanes222, List.cons_append,
      List.nil_append, List.append_nil, bind, Option.bind, Int.add_assoc, Int.reduceAdd, Int.add_zero, a16_0, a16_2, a16_4,
      a16_6, a32_0, a32_4, a64_0]

theorem store_nt_law (E : FEnv) : StoreLaw 8 V.lanes (fun v p => store_nt E v p) 64 :=
  storeOf (fun _ => rfl) fun v p ha => by
  have ha : aligned 8 p 64 = true := ha
  have a16_0 := assertAligned_ok (aligned_of_dvd (al' := 16) ha (by decide))
  have a16_2 := assertAligned_ok (aligned_add 2 (aligned_of_dvd (al' := 16) ha (by decide)) (by decide))
  have a16_4 := assertAligned_ok (aligned_add 4 (aligned_of_dvd (al' := 16) ha (by decide)) (by decide))
  have a16_6 := assertAligned_ok (aligned_add 6 (aligned_of_dvd (al' := 16) ha (by decide)) (by decide))
  have a32_0 := assertAligned_ok (aligned_of_dvd (al' := 32) ha (by decide))
  have a32_4 := assertAligned_ok (aligned_add 4 (aligned_of_dvd (al' := 32) ha (by decide)) (by decide))
  have a64_0 := assertAligned_ok (aligned_of_dvd (al' := 64) ha (by decide))
  change _ = some (st p [v.val.x0.x0.x0, v.val.x0.x0.x1, v.val.x0.x1.x0, v.val.x0.x1.x1, v.val.x1.x0.x0, v.val.x1.x0.x1,
      v.val.x1.x1.x0, v.val.x1.x1.x1])
  simp only [store_nt, store, _mm_storeu_ps, _mm_store_ps, _mm_stream_ps, _mm_store_ss, _mm_storeu_pd, _mm_store_pd,
      _mm_stream_pd, _mm_storel_pd, _mm_storeh_pd, _mm_storeu_si128, _mm_store_si128, _mm_stream_si128, _mm256_storeu_ps,
      _mm256_store_ps, _mm256_stream_ps, _mm256_storeu_pd, _mm256_store_pd, _mm256_stream_pd, _mm256_storeu_si256,
      _mm256_store_si256, _mm256_stream_si256, _mm512_storeu_ps, _mm512_store_ps, _mm512_stream_ps, _mm512_storenr_ps,
      _mm512_storeu_pd, _mm512_store_pd, _mm512_stream_pd, _mm512_storenr_pd, _mm512_storeu_si512, _mm512_store_epi32,
      _mm512_stream_si512, vst1q_f32, vec_sta, st, lanes4, lanes2, lanes24, lanes22, lanes224, lanes222, List.cons_append,
      List.nil_append, List.append_nil, bind, Option.bind, Int.add_assoc, Int.reduceAdd, Int.add_zero, a16_0, a16_2, a16_4,
      a16_6, a32_0, a32_4, a64_0]

theorem opStore_law (E : FEnv) : StoreLaw 8 V.lanes (fun v p => opStore E p v) 1 :=
  by
  intro m v p ha h
  obtain ⟨ws, m', h1, h2⟩ := store_law E m v p ha h
  exact ⟨ws, m', bindS h1 rfl, h2⟩

theorem gather_law (E : FEnv) (v : V) : GatherLaw 8 V.lanes (fun m mo p o => gather E m mo v p o) 32 true :=
  by
  intro m mo p o off g ha hn ho hg
  have ha : aligned 4 o 32 = true := ha
  have a16_0 := assertAligned_ok (aligned_of_dvd (al' := 16) ha (by decide))
  have a16_4 := assertAligned_ok (aligned_add 4 (aligned_of_dvd (al' := 16) ha (by decide)) (by decide))
  have a32_0 := assertAligned_ok (aligned_of_dvd (al' := 32) ha (by decide))
  obtain ⟨b, hb⟩ := micOffsets (a := uninit) ha ho
  have ho := at8 ho
  have hg := all8 hg
  exact ⟨_, by simp only [gather, _mm_loadu_ps, _mm_load_ps, _mm_loadu_pd, _mm_load_pd, _mm_loadu_si128, _mm_load_si128,
      _mm_load_ss, _mm_loadl_pd, _mm_loadh_pd, _mm256_loadu_ps, _mm256_load_ps, _mm256_loadu_pd, _mm256_load_pd,
      _mm256_loadu_si256, _mm256_load_si256, _mm512_loadu_ps, _mm512_load_ps, _mm512_loadu_pd, _mm512_load_pd,
      _mm512_loadu_si512, _mm512_load_epi32, vld1q_f32, vec_lda, ld16, ld8, ld2x, ld4, ld2, gath4, gath2x, _mm256_i32gather_ps,
      _mm256_i32gather_epi32, _mm256_i32gather_pd, _mm512_i32gather_ps, _mm512_i32gather_epi32, _mm512_i32gather_pd,
      _mm512_i32logather_pd, _mm512_permute4f128_epi32, SHORTVEC_INSERT_PS_AVX, SHORTVEC_INSERT_PS, gaddr44, gaddr88, bind,
      Option.bind, Int.add_assoc, Int.reduceAdd, Int.add_zero, ho, hg, hb] <;> rfl, rfl⟩

theorem scatter_law (E : FEnv) : ScatterLaw 8 V.lanes (fun mo v p o => scatter E mo v p o) 32 :=
  by
  intro mo v p o off ha ho
  have ha : aligned 4 o 32 = true := ha
  have a16_0 := assertAligned_ok (aligned_of_dvd (al' := 16) ha (by decide))
  have a16_4 := assertAligned_ok (aligned_add 4 (aligned_of_dvd (al' := 16) ha (by decide)) (by decide))
  have a32_0 := assertAligned_ok (aligned_of_dvd (al' := 32) ha (by decide))
  obtain ⟨b, hb⟩ := micOffsets (a := uninit) ha ho
  have ho := at8 ho
  simp only [scatter, _mm_loadu_ps, _mm_load_ps, _mm_loadu_pd, _mm_load_pd, _mm_loadu_si128, _mm_load_si128, _mm_load_ss,
      _mm_loadl_pd, _mm_loadh_pd, _mm256_loadu_ps, _mm256_load_ps, _mm256_loadu_pd, _mm256_load_pd, _mm256_loadu_si256,
      _mm256_load_si256, _mm512_loadu_ps, _mm512_load_ps, _mm512_loadu_pd, _mm512_load_pd, _mm512_loadu_si512,
      _mm512_load_epi32, vld1q_f32, vec_lda, ld16, ld8, ld2x, ld4, ld2, _mm_storeu_ps, _mm_store_ps, _mm_stream_ps,
      _mm_store_ss, _mm_storeu_pd, _mm_store_pd, _mm_stream_pd, _mm_storel_pd, _mm_storeh_pd, _mm_storeu_si128, _mm_store_si128,
      _mm_stream_si128, _mm256_storeu_ps, _mm256_store_ps, _mm256_stream_ps, _mm256_storeu_pd, _mm256_store_pd,
      _mm256_stream_pd, _mm256_storeu_si256, _mm256_store_si256, _mm256_stream_si256, _mm512_storeu_ps, _mm512_store_ps,
      _mm512_stream_ps, _mm512_storenr_ps, _mm512_storeu_pd, _mm512_store_pd, _mm512_stream_pd, _mm512_storenr_pd,
      _mm512_storeu_si512, _mm512_store_epi32, _mm512_stream_si512, vst1q_f32, vec_sta, st, lanes4, lanes2, lanes24, lanes22,
      lanes224, lanes222, List.cons_append, List.nil_append, List.append_nil, scat, _mm512_i32scatter_ps,
      _mm512_i32scatter_epi32, _mm512_i32scatter_pd, _mm512_i32loscatter_pd, _mm512_permute4f128_epi32, bind, Option.bind,
      Int.add_assoc, Int.reduceAdd, Int.add_zero, ho, List.zipWith, gaddr44, gaddr88, hb]
  rfl

theorem print_law (E : FEnv) : PrintLaw V.lanes (print E) :=
  fun _ => rfl

end LFA.SV.MicDouble8

namespace LFA.SV.MicDouble16

theorem len_law : LenLaw 16 V.lanes :=
  fun _ => rfl

theorem bcast_law (E : FEnv) : BcastLaw 16 V.lanes (bcast E) :=
  fun _ => rfl

theorem opAdd_law (E : FEnv) : BinLaw V.lanes (fun a b => some (opAdd E a b)) ((LaneOps.ieee FEnv.f64).add E) :=
  binSome (fun _ _ => rfl)

theorem opSub_law (E : FEnv) : BinLaw V.lanes (fun a b => some (opSub E a b)) ((LaneOps.ieee FEnv.f64).sub E) :=
  binSome (fun _ _ => rfl)

theorem opMul_law (E : FEnv) : BinLaw V.lanes (fun a b => some (opMul E a b)) ((LaneOps.ieee FEnv.f64).mul E) :=
  binSome (fun _ _ => rfl)

theorem opDiv_law (E : FEnv) : BinLaw V.lanes (fun a b => some (opDiv E a b)) ((LaneOps.ieee FEnv.f64).div E) :=
  binSome (fun _ _ => rfl)

theorem opAddAssign_law (E : FEnv) : BinLaw V.lanes (fun a b => some (opAddAssign E a b)) ((LaneOps.ieee FEnv.f64).add E) :=
  binSome (fun _ _ => rfl)

theorem opSubAssign_law (E : FEnv) : BinLaw V.lanes (fun a b => some (opSubAssign E a b)) ((LaneOps.ieee FEnv.f64).sub E) :=
  binSome (fun _ _ => rfl)

theorem opMulAssign_law (E : FEnv) : BinLaw V.lanes (fun a b => some (opMulAssign E a b)) ((LaneOps.ieee FEnv.f64).mulA E) :=
  binSome (fun _ _ => rfl)

theorem opDivAssign_law (E : FEnv) : BinLaw V.lanes (fun a b => some (opDivAssign E a b)) ((LaneOps.ieee FEnv.f64).divA E) :=
  binSome (fun _ _ => rfl)

theorem sqrtFn_law (E : FEnv) : UnLaw V.lanes (fun a => some (sqrtFn E a)) ((LaneOps.ieee FEnv.f64).sqrt E) :=
  unSome (fun _ => rfl)

theorem sqrt_law (E : FEnv) : UnLaw V.lanes (fun a => some (sqrt E a)) ((LaneOps.ieee FEnv.f64).sqrt E) :=
  unSome (fun _ => rfl)

theorem load_law (E : FEnv) (v : V) : LoadLaw 16 V.lanes (fun m p => load E m v p) 1 :=
  by
  intro m p g ha h
  obtain ⟨b0, l0, u0⟩ := micLoad8 (m := m) (a := v.val0) (p := p + 0) (q := p + 8)
    (g := fun k => g (0 + k)) (by omega) fun k hk => by
      rw [← h (0 + k) (by omega)]; congr 1; push_cast; omega
  obtain ⟨b1, l1, u1⟩ := micLoad8 (m := m) (a := v.val1) (p := p + 8) (q := p + 16)
    (g := fun k => g (8 + k)) (by omega) fun k hk => by
      rw [← h (8 + k) (by omega)]; congr 1; push_cast; omega
  exact ⟨_, bindS l0 <| bindS u0 <| bindS l1 <| bindS u1 <| rfl, rfl⟩

theorem load_aligned_law (E : FEnv) (v : V) : LoadLaw 16 V.lanes (fun m p => load_aligned E m v p) 64 :=
  by
  intro m p g ha h
  have ha : aligned 8 p 64 = true := ha
  have a16_0 := assertAligned_ok (aligned_of_dvd (al' := 16) ha (by decide))
  have a16_2 := assertAligned_ok (aligned_add 2 (aligned_of_dvd (al' := 16) ha (by decide)) (by decide))
  have a16_4 := assertAligned_ok (aligned_add 4 (aligned_of_dvd (al' := 16) ha (by decide)) (by decide))
  have a16_6 := assertAligned_ok (aligned_add 6 (aligned_of_dvd (al' := 16) ha (by decide)) (by decide))
  have a16_8 := assertAligned_ok (aligned_add 8 (aligned_of_dvd (al' := 16) ha (by decide)) (by decide))
  have a16_10 := assertAligned_ok (aligned_add 10 (aligned_of_dvd (al' := 16) ha (by decide)) (by decide))
  have a16_12 := assertAligned_ok (aligned_add 12 (aligned_of_dvd (al' := 16) ha (by decide)) (by decide))
  have a16_14 := assertAligned_ok (aligned_add 14 (aligned_of_dvd (al' := 16) ha (by decide)) (by decide))
  have a32_0 := assertAligned_ok (aligned_of_dvd (al' := 32) ha (by decide))
  have a32_4 := assertAligned_ok (aligned_add 4 (aligned_of_dvd (al' := 32) ha (by decide)) (by decide))
  have a32_8 := assertAligned_ok (aligned_add 8 (aligned_of_dvd (al' := 32) ha (by decide)) (by decide))
  have a32_12 := assertAligned_ok (aligned_add 12 (aligned_of_dvd (al' := 32) ha (by decide)) (by decide))
  have a64_0 := assertAligned_ok (aligned_of_dvd (al' := 64) ha (by decide))
  have a64_8 := assertAligned_ok (aligned_add 8 (aligned_of_dvd (al' := 64) ha (by decide)) (by decide))
  have h := at16 h
  exact ⟨_, by simp only [load_aligned, load, _mm_loadu_ps, _mm_load_ps, _mm_loadu_pd, _mm_load_pd, _mm_loadu_si128,
      _mm_load_si128, _mm_load_ss, _mm_loadl_pd, _mm_loadh_pd, _mm256_loadu_ps, _mm256_load_ps, _mm256_loadu_pd, _mm256_load_pd,
      _mm256_loadu_si256, _mm256_load_si256, _mm512_loadu_ps, _mm512_load_ps, _mm512_loadu_pd, _mm512_load_pd,
      _mm512_loadu_si512, _mm512_load_epi32, vld1q_f32, vec_lda, ld16, ld8, ld2x, ld4, ld2, bind, Option.bind, Int.add_assoc,
      Int.reduceAdd, Int.add_zero, h, a16_0, a16_2, a16_4, a16_6, a16_8, a16_10, a16_12, a16_14, a32_0, a32_4, a32_8, a32_12,
      a64_0, a64_8] <;> rfl, rfl⟩

theorem ofPtr_law (E : FEnv) : LoadLaw 16 V.lanes (fun m p => ofPtr E m p) 1 :=
  by
  intro m p g ha h
  obtain ⟨v, h1, h2⟩ := load_law E _ m p g ha h
  exact ⟨v, bindS h1 rfl, h2⟩

theorem ofList_law (E : FEnv) : LoadLaw 16 V.lanes (fun m p => ofList E m p) 1 :=
  by
  intro m p g ha h
  obtain ⟨v, h1, h2⟩ := load_law E _ m p g ha h
  exact ⟨v, bindS h1 rfl, h2⟩

theorem store_law (E : FEnv) : StoreLaw 16 V.lanes (fun v p => store E v p) 1 :=
  storeOfPerm (fun _ => rfl) fun v p _ => ⟨_, rfl, by
    have e0 := micStore8 (p := p + 0) (q := p + 8) (a := v.val0) (by omega)
    have e1 := micStore8 (p := p + 8) (q := p + 16) (a := v.val1) (by omega)
    change List.Perm _ (st p (lanes v.val0 ++ (lanes v.val1)))
    have e := e0.append e1
    simp only [st_app8, Int.add_assoc, Int.reduceAdd, Int.add_zero, List.append_assoc] at e ⊢
    exact e⟩

theorem store_aligned_law (E : FEnv) : StoreLaw 16 V.lanes (fun v p => store_aligned E v p) 64 :=
  storeOf (fun _ => rfl) fun v p ha => by
  have ha : aligned 8 p 64 = true := ha
  have a16_0 := assertAligned_ok (aligned_of_dvd (al' := 16) ha (by decide))
  have a16_2 := assertAligned_ok (aligned_add 2 (aligned_of_dvd (al' := 16) ha (by decide)) (by decide))
  have a16_4 := assertAligned_ok (aligned_add 4 (aligned_of_dvd (al' := 16) ha (by decide)) (by decide))
  have a16_6 := assertAligned_ok (aligned_add 6 (aligned_of_dvd (al' := 16) ha (by decide)) (by decide))
  have a16_8 := assertAligned_ok (aligned_add 8 (aligned_of_dvd (al' := 16) ha (by decide)) (by decide))
  have a16_10 := assertAligned_ok (aligned_add 10 (aligned_of_dvd (al' := 16) ha (by decide)) (by decide))
  have a16_12 := assertAligned_ok (aligned_add 12 (aligned_of_dvd (al' := 16) ha (by decide)) (by decide))
  have a16_14 := assertAligned_ok (aligned_add 14 (aligned_of_dvd (al' := 16) ha (by decide)) (by decide))
  have a32_0 := assertAligned_ok (aligned_of_dvd (al' := 32) ha (by decide))
  have a32_4 := assertAligned_ok (aligned_add 4 (aligned_of_dvd (al' := 32) ha (by decide)) (by decide))
  have a32_8 := assertAligned_ok (aligned_add 8 (aligned_of_dvd (al' := 32) ha (by decide)) (by decide))
  have a32_12 := assertAligned_ok (aligned_add 12 (aligned_of_dvd (al' := 32) ha (by decide)) (by decide))
  have a64_0 := assertAligned_ok (aligned_of_dvd (al' := 64) ha (by decide))
  have a64_8 := assertAligned_ok (aligned_add 8 (aligned_of_dvd (al' := 64) ha (by decide)) (by decide))
  change _ = some (st p [v.val0.x0.x0.x0, v.val0.x0.x0.x1, v.val0.x0.x1.x0, v.val0.x0.x1.x1, v.val0.x1.x0.x0, v.val0.x1.x0.x1,
      v.val0.x1.x1.x0, v.val0.x1.x1.x1, v.val1.x0.x0.x0, v.val1.x0.x0.x1, v.val1.x0.x1.x0, v.val1.x0.x1.x1, v.val1.x1.x0.x0,
      v.val1.x1.x0.x1, v.val1.x1.x1.x0, v.val1.x1.x1.x1])
  simp only [store_aligned, store, _mm_storeu_ps, _mm_store_ps, _mm_stream_ps, _mm_store_ss, _mm_storeu_pd, _mm_store_pd,
      _mm_stream_pd, _mm_storel_pd, _mm_storeh_pd, _mm_storeu_si128, _mm_store_si128, _mm_stream_si128, _mm256_storeu_ps,
      _mm256_store_ps, _mm256_stream_ps, _mm256_storeu_pd, _mm256_store_pd, _mm256_stream_pd, _mm256_storeu_si256,
      _mm256_store_si256, _mm256_stream_si256, _mm512_storeu_ps, _mm512_store_ps, _mm512_stream_ps, _mm512_storenr_ps,
      _mm512_storeu_pd, _mm512_store_pd, _mm512_stream_pd, _mm512_storenr_pd, _mm512_storeu_si512, _mm512_store_epi32,
      _mm512_stream_si512, vst1q_f32, vec_sta, st, lanes4, lanes2, lanes24, lanes22, lanes224, lanes222, List.cons_append,
      List.nil_append, List.append_nil, bind, Option.bind, Int.add_assoc, Int.reduceAdd, Int.add_zero, a16_0, a16_2, a16_4,
      a16_6, a16_8, a16_10, a16_12, a16_14, a32_0, a32_4, a32_8, a32_12, a64_0, a64_8]

theorem store_nt_law (E : FEnv) : StoreLaw 16 V.lanes (fun v p => store_nt E v p) 64 :=
  storeOf (fun _ => rfl) fun v p ha => by
  have ha : aligned 8 p 64 = true := ha
  have a16_0 := assertAligned_ok (aligned_of_dvd (al' := 16) ha (by decide))
  have a16_2 := assertAligned_ok (aligned_add 2 (aligned_of_dvd (al' := 16) ha (by decide)) (by decide))
  have a16_4 := assertAligned_ok (aligned_add 4 (aligned_of_dvd (al' := 16) ha (by decide)) (by decide))
  have a16_6 := assertAligned_ok (aligned_add 6 (aligned_of_dvd (al' := 16) ha (by decide)) (by decide))
  have a16_8 := assertAligned_ok (aligned_add 8 (aligned_of_dvd (al' := 16) ha (by decide)) (by decide))
  have a16_10 := assertAligned_ok (aligned_add 10 (aligned_of_dvd (al' := 16) ha (by decide)) (by decide))
  have a16_12 := assertAligned_ok (aligned_add 12 (aligned_of_dvd (al' := 16) ha (by decide)) (by decide))
  have a16_14 := assertAligned_ok (aligned_add 14 (aligned_of_dvd (al' := 16) ha (by decide)) (by decide))
  have a32_0 := assertAligned_ok (aligned_of_dvd (al' := 32) ha (by decide))
  have a32_4 := assertAligned_ok (aligned_add 4 (aligned_of_dvd (al' := 32) ha (by decide)) (by decide))
  have a32_8 := assertAligned_ok (aligned_add 8 (aligned_of_dvd (al' := 32) ha (by decide)) (by decide))
  have a32_12 := assertAligned_ok (aligned_add 12 (aligned_of_dvd (al' := 32) ha (by decide)) (by decide))
  have a64_0 := assertAligned_ok (aligned_of_dvd (al' := 64) ha (by decide))
  have a64_8 := assertAligned_ok (aligned_add 8 (aligned_of_dvd (al' := 64) ha (by decide)) (by decide))
  change _ = some (st p [v.val0.x0.x0.x0, v.val0.x0.x0.x1, v.val0.x0.x1.x0, v.val0.x0.x1.x1, v.val0.x1.x0.x0, v.val0.x1.x0.x1,
      v.val0.x1.x1.x0, v.val0.x1.x1.x1, v.val1.x0.x0.x0, v.val1.x0.x0.x1, v.val1.x0.x1.x0, v.val1.x0.x1.x1, v.val1.x1.x0.x0,
      v.val1.x1.x0.x1, v.val1.x1.x1.x0, v.val1.x1.x1.x1])
  simp only [store_nt, store, _mm_storeu_ps, _mm_store_ps, _mm_stream_ps, _mm_store_ss, _mm_storeu_pd, _mm_store_pd,
      _mm_stream_pd, _mm_storel_pd, _mm_storeh_pd, _mm_storeu_si128, _mm_store_si128, _mm_stream_si128, _mm256_storeu_ps,
      _mm256_store_ps, _mm256_stream_ps, _mm256_storeu_pd, _mm256_store_pd, _mm256_stream_pd, _mm256_storeu_si256,
      _mm256_store_si256, _mm256_stream_si256, _mm512_storeu_ps, _mm512_store_ps, _mm512_stream_ps, _mm512_storenr_ps,
      _mm512_storeu_pd, _mm512_store_pd, _mm512_stream_pd, _mm512_storenr_pd, _mm512_storeu_si512, _mm512_store_epi32,
      _mm512_stream_si512, vst1q_f32, vec_sta, st, lanes4, lanes2, lanes24, lanes22, lanes224, lanes222, List.cons_append,
      List.nil_append, List.append_nil, bind, Option.bind, Int.add_assoc, Int.reduceAdd, Int.add_zero, a16_0, a16_2, a16_4,
      a16_6, a16_8, a16_10, a16_12, a16_14, a32_0, a32_4, a32_8, a32_12, a64_0, a64_8]

theorem opStore_law (E : FEnv) : StoreLaw 16 V.lanes (fun v p => opStore E p v) 1 :=
  by
  intro m v p ha h
  obtain ⟨ws, m', h1, h2⟩ := store_law E m v p ha h
  exact ⟨ws, m', bindS h1 rfl, h2⟩

theorem gather_law (E : FEnv) (v : V) : GatherLaw 16 V.lanes (fun m mo p o => gather E m mo v p o) 64 true :=
  by
  intro m mo p o off g ha hn ho hg
  have ha : aligned 4 o 64 = true := ha
  have a16_0 := assertAligned_ok (aligned_of_dvd (al' := 16) ha (by decide))
  have a16_4 := assertAligned_ok (aligned_add 4 (aligned_of_dvd (al' := 16) ha (by decide)) (by decide))
  have a16_8 := assertAligned_ok (aligned_add 8 (aligned_of_dvd (al' := 16) ha (by decide)) (by decide))
  have a16_12 := assertAligned_ok (aligned_add 12 (aligned_of_dvd (al' := 16) ha (by decide)) (by decide))
  have a32_0 := assertAligned_ok (aligned_of_dvd (al' := 32) ha (by decide))
  have a32_8 := assertAligned_ok (aligned_add 8 (aligned_of_dvd (al' := 32) ha (by decide)) (by decide))
  have a64_0 := assertAligned_ok (aligned_of_dvd (al' := 64) ha (by decide))
  have ho := at16 ho
  have hg := all16 hg
  exact ⟨_, by simp only [gather, _mm_loadu_ps, _mm_load_ps, _mm_loadu_pd, _mm_load_pd, _mm_loadu_si128, _mm_load_si128,
      _mm_load_ss, _mm_loadl_pd, _mm_loadh_pd, _mm256_loadu_ps, _mm256_load_ps, _mm256_loadu_pd, _mm256_load_pd,
      _mm256_loadu_si256, _mm256_load_si256, _mm512_loadu_ps, _mm512_load_ps, _mm512_loadu_pd, _mm512_load_pd,
      _mm512_loadu_si512, _mm512_load_epi32, vld1q_f32, vec_lda, ld16, ld8, ld2x, ld4, ld2, gath4, gath2x, _mm256_i32gather_ps,
      _mm256_i32gather_epi32, _mm256_i32gather_pd, _mm512_i32gather_ps, _mm512_i32gather_epi32, _mm512_i32gather_pd,
      _mm512_i32logather_pd, _mm512_permute4f128_epi32, SHORTVEC_INSERT_PS_AVX, SHORTVEC_INSERT_PS, gaddr44, gaddr88, bind,
      Option.bind, Int.add_assoc, Int.reduceAdd, Int.add_zero, ho, hg, a16_0, a16_4, a16_8, a16_12, a32_0, a32_8, a64_0] <;>
      rfl, rfl⟩

theorem scatter_law (E : FEnv) : ScatterLaw 16 V.lanes (fun mo v p o => scatter E mo v p o) 64 :=
  by
  intro mo v p o off ha ho
  have ha : aligned 4 o 64 = true := ha
  have a16_0 := assertAligned_ok (aligned_of_dvd (al' := 16) ha (by decide))
  have a16_4 := assertAligned_ok (aligned_add 4 (aligned_of_dvd (al' := 16) ha (by decide)) (by decide))
  have a16_8 := assertAligned_ok (aligned_add 8 (aligned_of_dvd (al' := 16) ha (by decide)) (by decide))
  have a16_12 := assertAligned_ok (aligned_add 12 (aligned_of_dvd (al' := 16) ha (by decide)) (by decide))
  have a32_0 := assertAligned_ok (aligned_of_dvd (al' := 32) ha (by decide))
  have a32_8 := assertAligned_ok (aligned_add 8 (aligned_of_dvd (al' := 32) ha (by decide)) (by decide))
  have a64_0 := assertAligned_ok (aligned_of_dvd (al' := 64) ha (by decide))
  have ho := at16 ho
  simp only [scatter, _mm_loadu_ps, _mm_load_ps, _mm_loadu_pd, _mm_load_pd, _mm_loadu_si128, _mm_load_si128, _mm_load_ss,
      _mm_loadl_pd, _mm_loadh_pd, _mm256_loadu_ps, _mm256_load_ps, _mm256_loadu_pd, _mm256_load_pd, _mm256_loadu_si256,
      _mm256_load_si256, _mm512_loadu_ps, _mm512_load_ps, _mm512_loadu_pd, _mm512_load_pd, _mm512_loadu_si512,
      _mm512_load_epi32, vld1q_f32, vec_lda, ld16, ld8, ld2x, ld4, ld2, _mm_storeu_ps, _mm_store_ps, _mm_stream_ps,
      _mm_store_ss, _mm_storeu_pd, _mm_store_pd, _mm_stream_pd, _mm_storel_pd, _mm_storeh_pd, _mm_storeu_si128, _mm_store_si128,
      _mm_stream_si128, _mm256_storeu_ps, _mm256_store_ps, _mm256_stream_ps, _mm256_storeu_pd, _mm256_store_pd,
      _mm256_stream_pd, _mm256_storeu_si256, _mm256_store_si256, _mm256_stream_si256, _mm512_storeu_ps, _mm512_store_ps,
      _mm512_stream_ps, _mm512_storenr_ps, _mm512_storeu_pd, _mm512_store_pd, _mm512_stream_pd, _mm512_storenr_pd,
      _mm512_storeu_si512, _mm512_store_epi32, _mm512_stream_si512, vst1q_f32, vec_sta, st, lanes4, lanes2, lanes24, lanes22,
      lanes224, lanes222, List.cons_append, List.nil_append, List.append_nil, scat, _mm512_i32scatter_ps,
      _mm512_i32scatter_epi32, _mm512_i32scatter_pd, _mm512_i32loscatter_pd, _mm512_permute4f128_epi32, bind, Option.bind,
      Int.add_assoc, Int.reduceAdd, Int.add_zero, ho, List.zipWith, gaddr44, gaddr88, a16_0, a16_4, a16_8, a16_12, a32_0, a32_8,
      a64_0]
  rfl

theorem print_law (E : FEnv) : PrintLaw V.lanes (print E) :=
  fun _ => rfl

end LFA.SV.MicDouble16

namespace LFA.SV.MicDouble32

theorem len_law : LenLaw 32 V.lanes :=
  fun _ => rfl

theorem bcast_law (E : FEnv) : BcastLaw 32 V.lanes (bcast E) :=
  fun _ => rfl

theorem opAdd_law (E : FEnv) : BinLaw V.lanes (fun a b => some (opAdd E a b)) ((LaneOps.ieee FEnv.f64).add E) :=
  binSome (fun _ _ => rfl)

theorem opSub_law (E : FEnv) : BinLaw V.lanes (fun a b => some (opSub E a b)) ((LaneOps.ieee FEnv.f64).sub E) :=
  binSome (fun _ _ => rfl)

theorem opMul_law (E : FEnv) : BinLaw V.lanes (fun a b => some (opMul E a b)) ((LaneOps.ieee FEnv.f64).mul E) :=
  binSome (fun _ _ => rfl)

theorem opDiv_law (E : FEnv) : BinLaw V.lanes (fun a b => some (opDiv E a b)) ((LaneOps.ieee FEnv.f64).div E) :=
  binSome (fun _ _ => rfl)

theorem opAddAssign_law (E : FEnv) : BinLaw V.lanes (fun a b => some (opAddAssign E a b)) ((LaneOps.ieee FEnv.f64).add E) :=
  binSome (fun _ _ => rfl)

theorem opSubAssign_law (E : FEnv) : BinLaw V.lanes (fun a b => some (opSubAssign E a b)) ((LaneOps.ieee FEnv.f64).sub E) :=
  binSome (fun _ _ => rfl)

theorem opMulAssign_law (E : FEnv) : BinLaw V.lanes (fun a b => some (opMulAssign E a b)) ((LaneOps.ieee FEnv.f64).mulA E) :=
  binSome (fun _ _ => rfl)

theorem opDivAssign_law (E : FEnv) : BinLaw V.lanes (fun a b => some (opDivAssign E a b)) ((LaneOps.ieee FEnv.f64).divA E) :=
  binSome (fun _ _ => rfl)

theorem sqrtFn_law (E : FEnv) : UnLaw V.lanes (fun a => some (sqrtFn E a)) ((LaneOps.ieee FEnv.f64).sqrt E) :=
  unSome (fun _ => rfl)

theorem sqrt_law (E : FEnv) : UnLaw V.lanes (fun a => some (sqrt E a)) ((LaneOps.ieee FEnv.f64).sqrt E) :=
  unSome (fun _ => rfl)

theorem load_law (E : FEnv) (v : V) : LoadLaw 32 V.lanes (fun m p => load E m v p) 1 :=
  by
  intro m p g ha h
  obtain ⟨b0, l0, u0⟩ := micLoad8 (m := m) (a := v.val0) (p := p + 0) (q := p + 8)
    (g := fun k => g (0 + k)) (by omega) fun k hk => by
      rw [← h (0 + k) (by omega)]; congr 1; push_cast; omega
  obtain ⟨b1, l1, u1⟩ := micLoad8 (m := m) (a := v.val1) (p := p + 8) (q := p + 16)
    (g := fun k => g (8 + k)) (by omega) fun k hk => by
      rw [← h (8 + k) (by omega)]; congr 1; push_cast; omega
  obtain ⟨b2, l2, u2⟩ := micLoad8 (m := m) (a := v.val2) (p := p + 16) (q := p + 24)
    (g := fun k => g (16 + k)) (by omega) fun k hk => by
      rw [← h (16 + k) (by omega)]; congr 1; push_cast; omega
  obtain ⟨b3, l3, u3⟩ := micLoad8 (m := m) (a := v.val3) (p := p + 24) (q := p + 32)
    (g := fun k => g (24 + k)) (by omega) fun k hk => by
      rw [← h (24 + k) (by omega)]; congr 1; push_cast; omega
  exact ⟨_, bindS l0 <| bindS u0 <| bindS l1 <| bindS u1 <| bindS l2 <| bindS u2 <| bindS l3 <| bindS u3 <| rfl, rfl⟩

theorem load_aligned_law (E : FEnv) (v : V) : LoadLaw 32 V.lanes (fun m p => load_aligned E m v p) 64 :=
  by
  intro m p g ha h
  have ha : aligned 8 p 64 = true := ha
  have a16_0 := assertAligned_ok (aligned_of_dvd (al' := 16) ha (by decide))
  have a16_2 := assertAligned_ok (aligned_add 2 (aligned_of_dvd (al' := 16) ha (by decide)) (by decide))
  have a16_4 := assertAligned_ok (aligned_add 4 (aligned_of_dvd (al' := 16) ha (by decide)) (by decide))
  have a16_6 := assertAligned_ok (aligned_add 6 (aligned_of_dvd (al' := 16) ha (by decide)) (by decide))
  have a16_8 := assertAligned_ok (aligned_add 8 (aligned_of_dvd (al' := 16) ha (by decide)) (by decide))
  have a16_10 := assertAligned_ok (aligned_add 10 (aligned_of_dvd (al' := 16) ha (by decide)) (by decide))
  have a16_12 := assertAligned_ok (aligned_add 12 (aligned_of_dvd (al' := 16) ha (by decide)) (by decide))
  have a16_14 := assertAligned_ok (aligned_add 14 (aligned_of_dvd (al' := 16) ha (by decide)) (by decide))
  have a16_16 := assertAligned_ok (aligned_add 16 (aligned_of_dvd (al' := 16) ha (by decide)) (by decide))
  have a16_18 := assertAligned_ok (aligned_add 18 (aligned_of_dvd (al' := 16) ha (by decide)) (by decide))
  have a16_20 := assertAligned_ok (aligned_add 20 (aligned_of_dvd (al' := 16) ha (by decide)) (by decide))
  have a16_22 := assertAligned_ok (aligned_add 22 (aligned_of_dvd (al' := 16) ha (by decide)) (by decide))
  have a16_24 := assertAligned_ok (aligned_add 24 (aligned_of_dvd (al' := 16) ha (by decide)) (by decide))
  have a16_26 := assertAligned_ok (aligned_add 26 (aligned_of_dvd (al' := 16) ha (by decide)) (by decide))
  have a16_28 := assertAligned_ok (aligned_add 28 (aligned_of_dvd (al' := 16) ha (by decide)) (by decide))
  have a16_30 := assertAligned_ok (aligned_add 30 (aligned_of_dvd (al' := 16) ha (by decide)) (by decide))
  have a32_0 := assertAligned_ok (aligned_of_dvd (al' := 32) ha (by decide))
  have a32_4 := assertAligned_ok (aligned_add 4 (aligned_of_dvd (al' := 32) ha (by decide)) (by decide))
  have a32_8 := assertAligned_ok (aligned_add 8 (aligned_of_dvd (al' := 32) ha (by decide)) (by decide))
  have a32_12 := assertAligned_ok (aligned_add 12 (aligned_of_dvd (al' := 32) ha (by decide)) (by decide))
  have a32_16 := assertAligned_ok (aligned_add 16 (aligned_of_dvd (al' := 32) ha (by decide)) (by decide))
  have a32_20 := assertAligned_ok (aligned_add 20 (aligned_of_dvd (al' := 32) ha (by decide)) (by decide))
  have a32_24 := assertAligned_ok (aligned_add 24 (aligned_of_dvd (al' := 32) ha (by decide)) (by decide))
  have a32_28 := assertAligned_ok (aligned_add 28 (aligned_of_dvd (al' := 32) ha (by decide)) (by decide))
  have a64_0 := assertAligned_ok (aligned_of_dvd (al' := 64) ha (by decide))
  have a64_8 := assertAligned_ok (aligned_add 8 (aligned_of_dvd (al' := 64) ha (by decide)) (by decide))
  have a64_16 := assertAligned_ok (aligned_add 16 (aligned_of_dvd (al' := 64) ha (by decide)) (by decide))
  have a64_24 := assertAligned_ok (aligned_add 24 (aligned_of_dvd (al' := 64) ha (by decide)) (by decide))
  have h := at32 h
  exact ⟨_, by simp only [load_aligned, load, _mm_loadu_ps, _mm_load_ps, _mm_loadu_pd, _mm_load_pd, _mm_loadu_si128,
      _mm_load_si128, _mm_load_ss, _mm_loadl_pd, _mm_loadh_pd, _mm256_loadu_ps, _mm256_load_ps, _mm256_loadu_pd, _mm256_load_pd,
      _mm256_loadu_si256, _mm256_load_si256, _mm512_loadu_ps, _mm512_load_ps, _mm512_loadu_pd, _mm512_load_pd,
      _mm512_loadu_si512, _mm512_load_epi32, vld1q_f32, vec_lda, ld16, ld8, ld2x, ld4, ld2, bind, Option.bind, Int.add_assoc,
      Int.reduceAdd, Int.add_zero, h, a16_0, a16_2, a16_4, a16_6, a16_8, a16_10, a16_12, a16_14, a16_16, a16_18, a16_20, a16_22,
      a16_24, a16_26, a16_28, a16_30, a32_0, a32_4, a32_8, a32_12, a32_16, a32_20, a32_24, a32_28, a64_0, a64_8, a64_16, a64_24]
      <;> rfl, rfl⟩

theorem ofPtr_law (E : FEnv) : LoadLaw 32 V.lanes (fun m p => ofPtr E m p) 1 :=
  by
  intro m p g ha h
  obtain ⟨v, h1, h2⟩ := load_law E _ m p g ha h
  exact ⟨v, bindS h1 rfl, h2⟩

theorem ofList_law (E : FEnv) : LoadLaw 32 V.lanes (fun m p => ofList E m p) 1 :=
  by
  intro m p g ha h
  obtain ⟨v, h1, h2⟩ := load_law E _ m p g ha h
  exact ⟨v, bindS h1 rfl, h2⟩

theorem store_law (E : FEnv) : StoreLaw 32 V.lanes (fun v p => store E v p) 1 :=
  storeOfPerm (fun _ => rfl) fun v p _ => ⟨_, rfl, by
    have e0 := micStore8 (p := p + 0) (q := p + 8) (a := v.val0) (by omega)
    have e1 := micStore8 (p := p + 8) (q := p + 16) (a := v.val1) (by omega)
    have e2 := micStore8 (p := p + 16) (q := p + 24) (a := v.val2) (by omega)
    have e3 := micStore8 (p := p + 24) (q := p + 32) (a := v.val3) (by omega)
    change List.Perm _ (st p (lanes v.val0 ++ (lanes v.val1 ++ (lanes v.val2 ++ (lanes v.val3)))))
    have e := ((e0.append e1).append e2).append e3
    simp only [st_app8, Int.add_assoc, Int.reduceAdd, Int.add_zero, List.append_assoc] at e ⊢
    exact e⟩

theorem store_aligned_law (E : FEnv) : StoreLaw 32 V.lanes (fun v p => store_aligned E v p) 64 :=
  storeOf (fun _ => rfl) fun v p ha => by
  have ha : aligned 8 p 64 = true := ha
  have a16_0 := assertAligned_ok (aligned_of_dvd (al' := 16) ha (by decide))
  have a16_2 := assertAligned_ok (aligned_add 2 (aligned_of_dvd (al' := 16) ha (by decide)) (by decide))
  have a16_4 := assertAligned_ok (aligned_add 4 (aligned_of_dvd (al' := 16) ha (by decide)) (by decide))
  have a16_6 := assertAligned_ok (aligned_add 6 (aligned_of_dvd (al' := 16) ha (by decide)) (by decide))
  have a16_8 := assertAligned_ok (aligned_add 8 (aligned_of_dvd (al' := 16) ha (by decide)) (by decide))
  have a16_10 := assertAligned_ok (aligned_add 10 (aligned_of_dvd (al' := 16) ha (by decide)) (by decide))
  have a16_12 := assertAligned_ok (aligned_add 12 (aligned_of_dvd (al' := 16) ha (by decide)) (by decide))
  have a16_14 := assertAligned_ok (aligned_add 14 (aligned_of_dvd (al' := 16) ha (by decide)) (by decide))
  have a16_16 := assertAligned_ok (aligned_add 16 (aligned_of_dvd (al' := 16) ha (by decide)) (by decide))
  have a16_18 := assertAligned_ok (aligned_add 18 (aligned_of_dvd (al' := 16) ha (by decide)) (by decide))
  have a16_20 := assertAligned_ok (aligned_add 20 (aligned_of_dvd (al' := 16) ha (by decide)) (by decide))
  have a16_22 := assertAligned_ok (aligned_add 22 (aligned_of_dvd (al' := 16) ha (by decide)) (by decide))
  have a16_24 := assertAligned_ok (aligned_add 24 (aligned_of_dvd (al' := 16) ha (by decide)) (by decide))
  have a16_26 := assertAligned_ok (aligned_add 26 (aligned_of_dvd (al' := 16) ha (by decide)) (by decide))
  have a16_28 := assertAligned_ok (aligned_add 28 (aligned_of_dvd (al' := 16) ha (by decide)) (by decide))
  have a16_30 := assertAligned_ok (aligned_add 30 (aligned_of_dvd (al' := 16) ha (by decide)) (by decide))
  have a32_0 := assertAligned_ok (aligned_of_dvd (al' := 32) ha (by decide))
  have a32_4 := assertAligned_ok (aligned_add 4 (aligned_of_dvd (al' := 32) ha (by decide)) (by decide))
  have a32_8 := assertAligned_ok (aligned_add 8 (aligned_of_dvd (al' := 32) ha (by decide)) (by decide))
  have a32_12 := assertAligned_ok (aligned_add 12 (aligned_of_dvd (al' := 32) ha (by decide)) (by decide))
  have a32_16 := assertAligned_ok (aligned_add 16 (aligned_of_dvd (al' := 32) ha (by decide)) (by decide))
  have a32_20 := assertAligned_ok (aligned_add 20 (aligned_of_dvd (al' := 32) ha (by decide)) (by decide))
  have a32_24 := assertAligned_ok (aligned_add 24 (aligned_of_dvd (al' := 32) ha (by decide)) (by decide))
  have a32_28 := assertAligned_ok (aligned_add 28 (aligned_of_dvd (al' := 32) ha (by decide)) (by decide))
  have a64_0 := assertAligned_ok (aligned_of_dvd (al' := 64) ha (by decide))
  have a64_8 := assertAligned_ok (aligned_add 8 (aligned_of_dvd (al' := 64) ha (by decide)) (by decide))
  have a64_16 := assertAligned_ok (aligned_add 16 (aligned_of_dvd (al' := 64) ha (by decide)) (by decide))
  have a64_24 := assertAligned_ok (aligned_add 24 (aligned_of_dvd (al' := 64) ha (by decide)) (by decide))
  change _ = some (st p [v.val0.x0.x0.x0, v.val0.x0.x0.x1, v.val0.x0.x1.x0, v.val0.x0.x1.x1, v.val0.x1.x0.x0, v.val0.x1.x0.x1,
      v.val0.x1.x1.x0, v.val0.x1.x1.x1, v.val1.x0.x0.x0, v.val1.x0.x0.x1, v.val1.x0.x1.x0, v.val1.x0.x1.x1, v.val1.x1.x0.x0,
      v.val1.x1.x0.x1, v.val1.x1.x1.x0, v.val1.x1.x1.x1, v.val2.x0.x0.x0, v.val2.x0.x0.x1, v.val2.x0.x1.x0, v.val2.x0.x1.x1,
      v.val2.x1.x0.x0, v.val2.x1.x0.x1, v.val2.x1.x1.x0, v.val2.x1.x1.x1, v.val3.x0.x0.x0, v.val3.x0.x0.x1, v.val3.x0.x1.x0,
      v.val3.x0.x1.x1, v.val3.x1.x0.x0, v.val3.x1.x0.x1, v.val3.x1.x1.x0, v.val3.x1.x1.x1])
  simp only [store_aligned, store, _mm_storeu_ps, _mm_store_ps, _mm_stream_ps, _mm_store_ss, _mm_storeu_pd, _mm_store_pd,
      _mm_stream_pd, _mm_storel_pd, _mm_storeh_pd, _mm_storeu_si128, _mm_store_si128, _mm_stream_si128, _mm256_storeu_ps,
      _mm256_store_ps, _mm256_stream_ps, _mm256_storeu_pd, _mm256_store_pd, _mm256_stream_pd, _mm256_storeu_si256,
      _mm256_store_si256, _mm256_stream_si256, _mm512_storeu_ps, _mm512_store_ps, _mm512_stream_ps, _mm512_storenr_ps,
      _mm512_storeu_pd, _mm512_store_pd, _mm512_stream_pd, _mm512_storenr_pd, _mm512_storeu_si512, _mm512_store_epi32,
      _mm512_stream_si512, vst1q_f32, vec_sta, st, lanes4, lanes2, lanes24, lanes22, lanes224, lanes222, List.cons_append,
      List.nil_append, List.append_nil, bind, Option.bind, Int.add_assoc, Int.reduceAdd, Int.add_zero, a16_0, a16_2, a16_4,
      a16_6, a16_8, a16_10, a16_12, a16_14, a16_16, a16_18, a16_20, a16_22, a16_24, a16_26, a16_28, a16_30, a32_0, a32_4, a32_8,
      a32_12, a32_16, a32_20, a32_24, a32_28, a64_0, a64_8, a64_16, a64_24]

theorem store_nt_law (E : FEnv) : StoreLaw 32 V.lanes (fun v p => store_nt E v p) 64 :=
  storeOf (fun _ => rfl) fun v p ha => by
  have ha : aligned 8 p 64 = true := ha
  have a16_0 := assertAligned_ok (aligned_of_dvd (al' := 16) ha (by decide))
  have a16_2 := assertAligned_ok (aligned_add 2 (aligned_of_dvd (al' := 16) ha (by decide)) (by decide))
  have a16_4 := assertAligned_ok (aligned_add 4 (aligned_of_dvd (al' := 16) ha (by decide)) (by decide))
  have a16_6 := assertAligned_ok (aligned_add 6 (aligned_of_dvd (al' := 16) ha (by decide)) (by decide))
  have a16_8 := assertAligned_ok (aligned_add 8 (aligned_of_dvd (al' := 16) ha (by decide)) (by decide))
  have a16_10 := assertAligned_ok (aligned_add 10 (aligned_of_dvd (al' := 16) ha (by decide)) (by decide))
  have a16_12 := assertAligned_ok (aligned_add 12 (aligned_of_dvd (al' := 16) ha (by decide)) (by decide))
  have a16_14 := assertAligned_ok (aligned_add 14 (aligned_of_dvd (al' := 16) ha (by decide)) (by decide))
  have a16_16 := assertAligned_ok (aligned_add 16 (aligned_of_dvd (al' := 16) ha (by decide)) (by decide))
  have a16_18 := assertAligned_ok (aligned_add 18 (aligned_of_dvd (al' := 16) ha (by decide)) (by decide))
  have a16_20 := assertAligned_ok (aligned_add 20 (aligned_of_dvd (al' := 16) ha (by decide)) (by decide))
  have a16_22 := assertAligned_ok (aligned_add 22 (aligned_of_dvd (al' := 16) ha (by decide)) (by decide))
  have a16_24 := assertAligned_ok (aligned_add 24 (aligned_of_dvd (al' := 16) ha (by decide)) (by decide))
  have a16_26 := assertAligned_ok (aligned_add 26 (aligned_of_dvd (al' := 16) ha (by decide)) (by decide))
  have a16_28 := assertAligned_ok (aligned_add 28 (aligned_of_dvd (al' := 16) ha (by decide)) (by decide))
  have a16_30 := assertAligned_ok (aligned_add 30 (aligned_of_dvd (al' := 16) ha (by decide)) (by decide))
  have a32_0 := assertAligned_ok (aligned_of_dvd (al' := 32) ha (by decide))
  have a32_4 := assertAligned_ok (aligned_add 4 (aligned_of_dvd (al' := 32) ha (by decide)) (by decide))
  have a32_8 := assertAligned_ok (aligned_add 8 (aligned_of_dvd (al' := 32) ha (by decide)) (by decide))
  have a32_12 := assertAligned_ok (aligned_add 12 (aligned_of_dvd (al' := 32) ha (by decide)) (by decide))
  have a32_16 := assertAligned_ok (aligned_add 16 (aligned_of_dvd (al' := 32) ha (by decide)) (by decide))
  have a32_20 := assertAligned_ok (aligned_add 20 (aligned_of_dvd (al' := 32) ha (by decide)) (by decide))
  have a32_24 := assertAligned_ok (aligned_add 24 (aligned_of_dvd (al' := 32) ha (by decide)) (by decide))
  have a32_28 := assertAligned_ok (aligned_add 28 (aligned_of_dvd (al' := 32) ha (by decide)) (by decide))
  have a64_0 := assertAligned_ok (aligned_of_dvd (al' := 64) ha (by decide))
  have a64_8 := assertAligned_ok (aligned_add 8 (aligned_of_dvd (al' := 64) ha (by decide)) (by decide))
  have a64_16 := assertAligned_ok (aligned_add 16 (aligned_of_dvd (al' := 64) ha (by decide)) (by decide))
  have a64_24 := assertAligned_ok (aligned_add 24 (aligned_of_dvd (al' := 64) ha (by decide)) (by decide))
  change _ = some (st p [v.val0.x0.x0.x0, v.val0.x0.x0.x1, v.val0.x0.x1.x0, v.val0.x0.x1.x1, v.val0.x1.x0.x0, v.val0.x1.x0.x1,
      v.val0.x1.x1.x0, v.val0.x1.x1.x1, v.val1.x0.x0.x0, v.val1.x0.x0.x1, v.val1.x0.x1.x0, v.val1.x0.x1.x1, v.val1.x1.x0.x0,
      v.val1.x1.x0.x1, v.val1.x1.x1.x0, v.val1.x1.x1.x1, v.val2.x0.x0.x0, v.val2.x0.x0.x1, v.val2.x0.x1.x0, v.val2.x0.x1.x1,
      v.val2.x1.x0.x0, v.val2.x1.x0.x1, v.val2.x1.x1.x0, v.val2.x1.x1.x1, v.val3.x0.x0.x0, v.val3.x0.x0.x1, v.val3.x0.x1.x0,
      v.val3.x0.x1.x1, v.val3.x1.x0.x0, v.val3.x1.x0.x1, v.val3.x1.x1.x0, v.val3.x1.x1.x1])
  simp only [store_nt, store, _mm_storeu_ps, _mm_store_ps, _mm_stream_ps, _mm_store_ss, _mm_storeu_pd, _mm_store_pd,
      _mm_stream_pd, _mm_storel_pd, _mm_storeh_pd, _mm_storeu_si128, _mm_store_si128, _mm_stream_si128, _mm256_storeu_ps,
      _mm256_store_ps, _mm256_stream_ps, _mm256_storeu_pd, _mm256_store_pd, _mm256_stream_pd, _mm256_storeu_si256,
      _mm256_store_si256, _mm256_stream_si256, _mm512_storeu_ps, _mm512_store_ps, _mm512_stream_ps, _mm512_storenr_ps,
      _mm512_storeu_pd, _mm512_store_pd, _mm512_stream_pd, _mm512_storenr_pd, _mm512_storeu_si512, _mm512_store_epi32,
      _mm512_stream_si512, vst1q_f32, vec_sta, st, lanes4, lanes2, lanes24, lanes22, lanes224, lanes222, List.cons_append,
      List.nil_append, List.append_nil, bind, Option.bind, Int.add_assoc, Int.reduceAdd, Int.add_zero, a16_0, a16_2, a16_4,
      a16_6, a16_8, a16_10, a16_12, a16_14, a16_16, a16_18, a16_20, a16_22, a16_24, a16_26, a16_28, a16_30, a32_0, a32_4, a32_8,
      a32_12, a32_16, a32_20, a32_24, a32_28, a64_0, a64_8, a64_16, a64_24]

theorem opStore_law (E : FEnv) : StoreLaw 32 V.lanes (fun v p => opStore E p v) 1 :=
  by
  intro m v p ha h
  obtain ⟨ws, m', h1, h2⟩ := store_law E m v p ha h
  exact ⟨ws, m', bindS h1 rfl, h2⟩

theorem gather_law (E : FEnv) (v : V) : GatherLaw 32 V.lanes (fun m mo p o => gather E m mo v p o) 64 true :=
  by
  intro m mo p o off g ha hn ho hg
  have ha : aligned 4 o 64 = true := ha
  have a16_0 := assertAligned_ok (aligned_of_dvd (al' := 16) ha (by decide))
  have a16_4 := assertAligned_ok (aligned_add 4 (aligned_of_dvd (al' := 16) ha (by decide)) (by decide))
  have a16_8 := assertAligned_ok (aligned_add 8 (aligned_of_dvd (al' := 16) ha (by decide)) (by decide))
  have a16_12 := assertAligned_ok (aligned_add 12 (aligned_of_dvd (al' := 16) ha (by decide)) (by decide))
  have a16_16 := assertAligned_ok (aligned_add 16 (aligned_of_dvd (al' := 16) ha (by decide)) (by decide))
  have a16_20 := assertAligned_ok (aligned_add 20 (aligned_of_dvd (al' := 16) ha (by decide)) (by decide))
  have a16_24 := assertAligned_ok (aligned_add 24 (aligned_of_dvd (al' := 16) ha (by decide)) (by decide))
  have a16_28 := assertAligned_ok (aligned_add 28 (aligned_of_dvd (al' := 16) ha (by decide)) (by decide))
  have a32_0 := assertAligned_ok (aligned_of_dvd (al' := 32) ha (by decide))
  have a32_8 := assertAligned_ok (aligned_add 8 (aligned_of_dvd (al' := 32) ha (by decide)) (by decide))
  have a32_16 := assertAligned_ok (aligned_add 16 (aligned_of_dvd (al' := 32) ha (by decide)) (by decide))
  have a32_24 := assertAligned_ok (aligned_add 24 (aligned_of_dvd (al' := 32) ha (by decide)) (by decide))
  have a64_0 := assertAligned_ok (aligned_of_dvd (al' := 64) ha (by decide))
  have a64_16 := assertAligned_ok (aligned_add 16 (aligned_of_dvd (al' := 64) ha (by decide)) (by decide))
  have ho := at32 ho
  have hg := all32 hg
  exact ⟨_, by simp only [gather, _mm_loadu_ps, _mm_load_ps, _mm_loadu_pd, _mm_load_pd, _mm_loadu_si128, _mm_load_si128,
      _mm_load_ss, _mm_loadl_pd, _mm_loadh_pd, _mm256_loadu_ps, _mm256_load_ps, _mm256_loadu_pd, _mm256_load_pd,
      _mm256_loadu_si256, _mm256_load_si256, _mm512_loadu_ps, _mm512_load_ps, _mm512_loadu_pd, _mm512_load_pd,
      _mm512_loadu_si512, _mm512_load_epi32, vld1q_f32, vec_lda, ld16, ld8, ld2x, ld4, ld2, gath4, gath2x, _mm256_i32gather_ps,
      _mm256_i32gather_epi32, _mm256_i32gather_pd, _mm512_i32gather_ps, _mm512_i32gather_epi32, _mm512_i32gather_pd,
      _mm512_i32logather_pd, _mm512_permute4f128_epi32, SHORTVEC_INSERT_PS_AVX, SHORTVEC_INSERT_PS, gaddr44, gaddr88, bind,
      Option.bind, Int.add_assoc, Int.reduceAdd, Int.add_zero, ho, hg, a16_0, a16_4, a16_8, a16_12, a16_16, a16_20, a16_24,
      a16_28, a32_0, a32_8, a32_16, a32_24, a64_0, a64_16] <;> rfl, rfl⟩

theorem scatter_law (E : FEnv) : ScatterLaw 32 V.lanes (fun mo v p o => scatter E mo v p o) 64 :=
  by
  intro mo v p o off ha ho
  have ha : aligned 4 o 64 = true := ha
  have a16_0 := assertAligned_ok (aligned_of_dvd (al' := 16) ha (by decide))
  have a16_4 := assertAligned_ok (aligned_add 4 (aligned_of_dvd (al' := 16) ha (by decide)) (by decide))
  have a16_8 := assertAligned_ok (aligned_add 8 (aligned_of_dvd (al' := 16) ha (by decide)) (by decide))
  have a16_12 := assertAligned_ok (aligned_add 12 (aligned_of_dvd (al' := 16) ha (by decide)) (by decide))
  have a16_16 := assertAligned_ok (aligned_add 16 (aligned_of_dvd (al' := 16) ha (by decide)) (by decide))
  have a16_20 := assertAligned_ok (aligned_add 20 (aligned_of_dvd (al' := 16) ha (by decide)) (by decide))
  have a16_24 := assertAligned_ok (aligned_add 24 (aligned_of_dvd (al' := 16) ha (by decide)) (by decide))
  have a16_28 := assertAligned_ok (aligned_add 28 (aligned_of_dvd (al' := 16) ha (by decide)) (by decide))
  have a32_0 := assertAligned_ok (aligned_of_dvd (al' := 32) ha (by decide))
  have a32_8 := assertAligned_ok (aligned_add 8 (aligned_of_dvd (al' := 32) ha (by decide)) (by decide))
  have a32_16 := assertAligned_ok (aligned_add 16 (aligned_of_dvd (al' := 32) ha (by decide)) (by decide))
  have a32_24 := assertAligned_ok (aligned_add 24 (aligned_of_dvd (al' := 32) ha (by decide)) (by decide))
  have a64_0 := assertAligned_ok (aligned_of_dvd (al' := 64) ha (by decide))
  have a64_16 := assertAligned_ok (aligned_add 16 (aligned_of_dvd (al' := 64) ha (by decide)) (by decide))
  have ho := at32 ho
  simp only [scatter, _mm_loadu_ps, _mm_load_ps, _mm_loadu_pd, _mm_load_pd, _mm_loadu_si128, _mm_load_si128, _mm_load_ss,
      _mm_loadl_pd, _mm_loadh_pd, _mm256_loadu_ps, _mm256_load_ps, _mm256_loadu_pd, _mm256_load_pd, _mm256_loadu_si256,
      _mm256_load_si256, _mm512_loadu_ps, _mm512_load_ps, _mm512_loadu_pd, _mm512_load_pd, _mm512_loadu_si512,
      _mm512_load_epi32, vld1q_f32, vec_lda, ld16, ld8, ld2x, ld4, ld2, _mm_storeu_ps, _mm_store_ps, _mm_stream_ps,
      _mm_store_ss, _mm_storeu_pd, _mm_store_pd, _mm_stream_pd, _mm_storel_pd, _mm_storeh_pd, _mm_storeu_si128, _mm_store_si128,
      _mm_stream_si128, _mm256_storeu_ps, _mm256_store_ps, _mm256_stream_ps, _mm256_storeu_pd, _mm256_store_pd,
      _mm256_stream_pd, _mm256_storeu_si256, _mm256_store_si256, _mm256_stream_si256, _mm512_storeu_ps, _mm512_store_ps,
      _mm512_stream_ps, _mm512_storenr_ps, _mm512_storeu_pd, _mm512_store_pd, _mm512_stream_pd, _mm512_storenr_pd,
      _mm512_storeu_si512, _mm512_store_epi32, _mm512_stream_si512, vst1q_f32, vec_sta, st, lanes4, lanes2, lanes24, lanes22,
      lanes224, lanes222, List.cons_append, List.nil_append, List.append_nil, scat, _mm512_i32scatter_ps,
      _mm512_i32scatter_epi32, _mm512_i32scatter_pd, _mm512_i32loscatter_pd, _mm512_permute4f128_epi32, bind, Option.bind,
      Int.add_assoc, Int.reduceAdd, Int.add_zero, ho, List.zipWith, gaddr44, gaddr88, a16_0, a16_4, a16_8, a16_12, a16_16,
      a16_20, a16_24, a16_28, a32_0, a32_8, a32_16, a32_24, a64_0, a64_16]
  rfl

theorem print_law (E : FEnv) : PrintLaw V.lanes (print E) :=
  fun _ => rfl

end LFA.SV.MicDouble32
