/-
  Generated by tools/sv_proofs.py: each interface record obeys the laws.
-/
import Verif.SVP.AvxDouble
import Verif.SVP.AvxFloat
import Verif.SVP.AvxInt
import Verif.SVP.Avx512Double
import Verif.SVP.Avx512Float
import Verif.SVP.Avx512Int
import Verif.SVP.MicDouble
import Verif.SVP.MicFloat
import Verif.SVP.NeonFloat
import Verif.SVP.QpxDouble
import Verif.SVP.ScalarDouble
import Verif.SVP.ScalarFloat
import Verif.SVP.ScalarInt
import Verif.SVP.SseDouble
import Verif.SVP.SseFloat
import Verif.SVP.SseInt
import Verif.SV.Impls
import Verif.SV.Targets
set_option autoImplicit false
set_option linter.unusedSimpArgs false
set_option linter.unusedVariables false
set_option maxRecDepth 100000
open LFA.SV

namespace LFA.SV.AvxDouble4
theorem arith_avx512f : Arith impl_avx512f (LaneOps.ieee FEnv.f64) :=
  ⟨len_law, bcast_law, fun E => opAdd_law E, fun E => opSub_law E, fun E => opMul_law E, fun E => opDiv_law E, fun E =>
      opAddAssign_law E, fun E => opSubAssign_law E, fun E => opMulAssign_law E, fun E => opDivAssign_law E, fun E => sqrtFn_law
      E, fun E => sqrt_law E, fun E => (divOf (opDiv_law E) (sqrtFn_law E) :), fun E => (divOf (opDivAssign_law E) (sqrtFn_law
      E) :)⟩

theorem mem_avx512f : MemLaws impl_avx512f ⟨1, 32, (some 32), 1, true⟩ :=
  ⟨load_law, load_aligned_law, ofPtr_law, ofList_law, store_law, store_aligned_law, fun E => ntOf (store_nt_law E), opStore_law,
      gather_avx512f_law, scatter_law⟩

theorem printLaw_avx512f (E : FEnv) : PrintLaw impl_avx512f.lanes (impl_avx512f.print E) := print_law E

theorem cmpLaws_avx512f : CmpLaws cmp_avx512f FEnv.f64 :=
  ⟨opLt_law, opLe_law, opEq_law, opGt_law, opGe_law, blend_law, any_law, any_law, opIndex_law⟩

end LFA.SV.AvxDouble4

namespace LFA.SV.AvxDouble4
theorem arith_avx : Arith impl_avx (LaneOps.ieee FEnv.f64) :=
  ⟨len_law, bcast_law, fun E => opAdd_law E, fun E => opSub_law E, fun E => opMul_law E, fun E => opDiv_law E, fun E =>
      opAddAssign_law E, fun E => opSubAssign_law E, fun E => opMulAssign_law E, fun E => opDivAssign_law E, fun E => sqrtFn_law
      E, fun E => sqrt_law E, fun E => (divOf (opDiv_law E) (sqrtFn_law E) :), fun E => (divOf (opDivAssign_law E) (sqrtFn_law
      E) :)⟩

theorem mem_avx : MemLaws impl_avx ⟨1, 32, (some 32), 1, true⟩ :=
  ⟨load_law, load_aligned_law, ofPtr_law, ofList_law, store_law, store_aligned_law, fun E => ntOf (store_nt_law E), opStore_law,
      gather_avx_law, scatter_law⟩

theorem printLaw_avx (E : FEnv) : PrintLaw impl_avx.lanes (impl_avx.print E) := print_law E

theorem cmpLaws_avx : CmpLaws cmp_avx FEnv.f64 :=
  ⟨opLt_law, opLe_law, opEq_law, opGt_law, opGe_law, blend_law, any_law, any_law, opIndex_law⟩

end LFA.SV.AvxDouble4

namespace LFA.SV.AvxDouble8
theorem arith_avx : Arith impl_avx (LaneOps.ieee FEnv.f64) :=
  ⟨len_law, bcast_law, fun E => opAdd_law E, fun E => opSub_law E, fun E => opMul_law E, fun E => opDiv_law E, fun E =>
      opAddAssign_law E, fun E => opSubAssign_law E, fun E => opMulAssign_law E, fun E => opDivAssign_law E, fun E => sqrtFn_law
      E, fun E => sqrt_law E, fun E => (divOf (opDiv_law E) (sqrtFn_law E) :), fun E => (divOf (opDivAssign_law E) (sqrtFn_law
      E) :)⟩

theorem mem_avx : MemLaws impl_avx ⟨1, 32, (some 32), 1, true⟩ :=
  ⟨load_law, load_aligned_law, ofPtr_law, ofList_law, store_law, store_aligned_law, fun E => ntOf (store_nt_law E), opStore_law,
      gather_avx_law, scatter_law⟩

theorem printLaw_avx (E : FEnv) : PrintLaw impl_avx.lanes (impl_avx.print E) := print_law E

theorem cmpLaws_avx : CmpLaws cmp_avx FEnv.f64 :=
  ⟨opLt_law, opLe_law, opEq_law, opGt_law, opGe_law, blend_law, any_law, any_law, opIndex_law⟩

end LFA.SV.AvxDouble8

namespace LFA.SV.AvxDouble8
theorem arith_avx2 : Arith impl_avx2 (LaneOps.ieee FEnv.f64) :=
  ⟨len_law, bcast_law, fun E => opAdd_law E, fun E => opSub_law E, fun E => opMul_law E, fun E => opDiv_law E, fun E =>
      opAddAssign_law E, fun E => opSubAssign_law E, fun E => opMulAssign_law E, fun E => opDivAssign_law E, fun E => sqrtFn_law
      E, fun E => sqrt_law E, fun E => (divOf (opDiv_law E) (sqrtFn_law E) :), fun E => (divOf (opDivAssign_law E) (sqrtFn_law
      E) :)⟩

theorem mem_avx2 : MemLaws impl_avx2 ⟨1, 32, (some 32), 1, true⟩ :=
  ⟨load_law, load_aligned_law, ofPtr_law, ofList_law, store_law, store_aligned_law, fun E => ntOf (store_nt_law E), opStore_law,
      gather_avx2_law, scatter_law⟩

theorem printLaw_avx2 (E : FEnv) : PrintLaw impl_avx2.lanes (impl_avx2.print E) := print_law E

theorem cmpLaws_avx2 : CmpLaws cmp_avx2 FEnv.f64 :=
  ⟨opLt_law, opLe_law, opEq_law, opGt_law, opGe_law, blend_law, any_law, any_law, opIndex_law⟩

end LFA.SV.AvxDouble8

namespace LFA.SV.AvxDouble16
theorem arith_avx : Arith impl_avx (LaneOps.ieee FEnv.f64) :=
  ⟨len_law, bcast_law, fun E => opAdd_law E, fun E => opSub_law E, fun E => opMul_law E, fun E => opDiv_law E, fun E =>
      opAddAssign_law E, fun E => opSubAssign_law E, fun E => opMulAssign_law E, fun E => opDivAssign_law E, fun E => sqrtFn_law
      E, fun E => sqrt_law E, fun E => (divOf (opDiv_law E) (sqrtFn_law E) :), fun E => (divOf (opDivAssign_law E) (sqrtFn_law
      E) :)⟩

theorem mem_avx : MemLaws impl_avx ⟨1, 32, (some 32), 1, true⟩ :=
  ⟨load_law, load_aligned_law, ofPtr_law, ofList_law, store_law, store_aligned_law, fun E => ntOf (store_nt_law E), opStore_law,
      gather_avx_law, scatter_law⟩

theorem printLaw_avx (E : FEnv) : PrintLaw impl_avx.lanes (impl_avx.print E) := print_law E

theorem cmpLaws_avx : CmpLaws cmp_avx FEnv.f64 :=
  ⟨opLt_law, opLe_law, opEq_law, opGt_law, opGe_law, blend_law, any_law, any_law, opIndex_law⟩

end LFA.SV.AvxDouble16

namespace LFA.SV.AvxDouble16
theorem arith_avx2 : Arith impl_avx2 (LaneOps.ieee FEnv.f64) :=
  ⟨len_law, bcast_law, fun E => opAdd_law E, fun E => opSub_law E, fun E => opMul_law E, fun E => opDiv_law E, fun E =>
      opAddAssign_law E, fun E => opSubAssign_law E, fun E => opMulAssign_law E, fun E => opDivAssign_law E, fun E => sqrtFn_law
      E, fun E => sqrt_law E, fun E => (divOf (opDiv_law E) (sqrtFn_law E) :), fun E => (divOf (opDivAssign_law E) (sqrtFn_law
      E) :)⟩

theorem mem_avx2 : MemLaws impl_avx2 ⟨1, 32, (some 32), 1, true⟩ :=
  ⟨load_law, load_aligned_law, ofPtr_law, ofList_law, store_law, store_aligned_law, fun E => ntOf (store_nt_law E), opStore_law,
      gather_avx2_law, scatter_law⟩

theorem printLaw_avx2 (E : FEnv) : PrintLaw impl_avx2.lanes (impl_avx2.print E) := print_law E

theorem cmpLaws_avx2 : CmpLaws cmp_avx2 FEnv.f64 :=
  ⟨opLt_law, opLe_law, opEq_law, opGt_law, opGe_law, blend_law, any_law, any_law, opIndex_law⟩

end LFA.SV.AvxDouble16

namespace LFA.SV.AvxDouble32
theorem arith_avx : Arith impl_avx (LaneOps.ieee FEnv.f64) :=
  ⟨len_law, bcast_law, fun E => opAdd_law E, fun E => opSub_law E, fun E => opMul_law E, fun E => opDiv_law E, fun E =>
      opAddAssign_law E, fun E => opSubAssign_law E, fun E => opMulAssign_law E, fun E => opDivAssign_law E, fun E => sqrtFn_law
      E, fun E => sqrt_law E, fun E => (divOf (opDiv_law E) (sqrtFn_law E) :), fun E => (divOf (opDivAssign_law E) (sqrtFn_law
      E) :)⟩

theorem mem_avx : MemLaws impl_avx ⟨1, 32, (some 32), 1, true⟩ :=
  ⟨load_law, load_aligned_law, ofPtr_law, ofList_law, store_law, store_aligned_law, fun E => ntOf (store_nt_law E), opStore_law,
      gather_avx_law, scatter_law⟩

theorem printLaw_avx (E : FEnv) : PrintLaw impl_avx.lanes (impl_avx.print E) := print_law E

theorem cmpLaws_avx : CmpLaws cmp_avx FEnv.f64 :=
  ⟨opLt_law, opLe_law, opEq_law, opGt_law, opGe_law, blend_law, any_law, any_law, opIndex_law⟩

end LFA.SV.AvxDouble32

namespace LFA.SV.AvxDouble32
theorem arith_avx2 : Arith impl_avx2 (LaneOps.ieee FEnv.f64) :=
  ⟨len_law, bcast_law, fun E => opAdd_law E, fun E => opSub_law E, fun E => opMul_law E, fun E => opDiv_law E, fun E =>
      opAddAssign_law E, fun E => opSubAssign_law E, fun E => opMulAssign_law E, fun E => opDivAssign_law E, fun E => sqrtFn_law
      E, fun E => sqrt_law E, fun E => (divOf (opDiv_law E) (sqrtFn_law E) :), fun E => (divOf (opDivAssign_law E) (sqrtFn_law
      E) :)⟩

theorem mem_avx2 : MemLaws impl_avx2 ⟨1, 32, (some 32), 1, true⟩ :=
  ⟨load_law, load_aligned_law, ofPtr_law, ofList_law, store_law, store_aligned_law, fun E => ntOf (store_nt_law E), opStore_law,
      gather_avx2_law, scatter_law⟩

theorem printLaw_avx2 (E : FEnv) : PrintLaw impl_avx2.lanes (impl_avx2.print E) := print_law E

theorem cmpLaws_avx2 : CmpLaws cmp_avx2 FEnv.f64 :=
  ⟨opLt_law, opLe_law, opEq_law, opGt_law, opGe_law, blend_law, any_law, any_law, opIndex_law⟩

end LFA.SV.AvxDouble32

namespace LFA.SV.AvxFloat8
theorem arith_avx512f : Arith impl_avx512f LaneOps.avx32 :=
  ⟨len_law, bcast_law, fun E => opAdd_law E, fun E => opSub_law E, fun E => opMul_law E, fun E => opDiv_law E, fun E =>
      opAddAssign_law E, fun E => opSubAssign_law E, fun E => opMulAssign_law E, fun E => opDivAssign_law E, fun E => ofSqrt_law
      E, fun E => sqrt_law E, fun E => opDivSqrt_law E, fun E => opDivAssignSqrt_law E⟩

theorem mem_avx512f : MemLaws impl_avx512f ⟨1, 32, (some 32), 1, true⟩ :=
  ⟨load_law, load_aligned_law, ofPtr_law, ofList_law, store_law, store_aligned_law, fun E => ntOf (store_nt_law E), opStore_law,
      gather_avx512f_law, scatter_law⟩

theorem printLaw_avx512f (E : FEnv) : PrintLaw impl_avx512f.lanes (impl_avx512f.print E) := print_law E

theorem cmpLaws_avx512f : CmpLaws cmp_avx512f FEnv.f32 :=
  ⟨opLt_law, opLe_law, opEq_law, opGt_law, opGe_law, blend_law, any_law, any_law, opIndex_law⟩

end LFA.SV.AvxFloat8

namespace LFA.SV.AvxFloat8
theorem arith_avx : Arith impl_avx LaneOps.avx32 :=
  ⟨len_law, bcast_law, fun E => opAdd_law E, fun E => opSub_law E, fun E => opMul_law E, fun E => opDiv_law E, fun E =>
      opAddAssign_law E, fun E => opSubAssign_law E, fun E => opMulAssign_law E, fun E => opDivAssign_law E, fun E => ofSqrt_law
      E, fun E => sqrt_law E, fun E => opDivSqrt_law E, fun E => opDivAssignSqrt_law E⟩

theorem mem_avx : MemLaws impl_avx ⟨1, 32, (some 32), 1, false⟩ :=
  ⟨load_law, load_aligned_law, ofPtr_law, ofList_law, store_law, store_aligned_law, fun E => ntOf (store_nt_law E), opStore_law,
      gather_avx_law, scatter_law⟩

theorem printLaw_avx (E : FEnv) : PrintLaw impl_avx.lanes (impl_avx.print E) := print_law E

theorem cmpLaws_avx : CmpLaws cmp_avx FEnv.f32 :=
  ⟨opLt_law, opLe_law, opEq_law, opGt_law, opGe_law, blend_law, any_law, any_law, opIndex_law⟩

end LFA.SV.AvxFloat8

namespace LFA.SV.AvxFloat16
theorem arith_avx : Arith impl_avx LaneOps.avx32 :=
  ⟨len_law, bcast_law, fun E => opAdd_law E, fun E => opSub_law E, fun E => opMul_law E, fun E => opDiv_law E, fun E =>
      opAddAssign_law E, fun E => opSubAssign_law E, fun E => opMulAssign_law E, fun E => opDivAssign_law E, fun E => ofSqrt_law
      E, fun E => sqrt_law E, fun E => opDivSqrt_law E, fun E => opDivAssignSqrt_law E⟩

theorem mem_avx : MemLaws impl_avx ⟨1, 32, (some 32), 1, false⟩ :=
  ⟨load_law, load_aligned_law, ofPtr_law, ofList_law, store_law, store_aligned_law, fun E => ntOf (store_nt_law E), opStore_law,
      gather_avx_law, scatter_law⟩

theorem printLaw_avx (E : FEnv) : PrintLaw impl_avx.lanes (impl_avx.print E) := print_law E

theorem cmpLaws_avx : CmpLaws cmp_avx FEnv.f32 :=
  ⟨opLt_law, opLe_law, opEq_law, opGt_law, opGe_law, blend_law, any_law, any_law, opIndex_law⟩

end LFA.SV.AvxFloat16

namespace LFA.SV.AvxFloat16
theorem arith_avx2 : Arith impl_avx2 LaneOps.avx32 :=
  ⟨len_law, bcast_law, fun E => opAdd_law E, fun E => opSub_law E, fun E => opMul_law E, fun E => opDiv_law E, fun E =>
      opAddAssign_law E, fun E => opSubAssign_law E, fun E => opMulAssign_law E, fun E => opDivAssign_law E, fun E => ofSqrt_law
      E, fun E => sqrt_law E, fun E => opDivSqrt_law E, fun E => opDivAssignSqrt_law E⟩

theorem mem_avx2 : MemLaws impl_avx2 ⟨1, 32, (some 32), 1, true⟩ :=
  ⟨load_law, load_aligned_law, ofPtr_law, ofList_law, store_law, store_aligned_law, fun E => ntOf (store_nt_law E), opStore_law,
      gather_avx2_law, scatter_law⟩

theorem printLaw_avx2 (E : FEnv) : PrintLaw impl_avx2.lanes (impl_avx2.print E) := print_law E

theorem cmpLaws_avx2 : CmpLaws cmp_avx2 FEnv.f32 :=
  ⟨opLt_law, opLe_law, opEq_law, opGt_law, opGe_law, blend_law, any_law, any_law, opIndex_law⟩

end LFA.SV.AvxFloat16

namespace LFA.SV.AvxFloat32
theorem arith_avx : Arith impl_avx LaneOps.avx32 :=
  ⟨len_law, bcast_law, fun E => opAdd_law E, fun E => opSub_law E, fun E => opMul_law E, fun E => opDiv_law E, fun E =>
      opAddAssign_law E, fun E => opSubAssign_law E, fun E => opMulAssign_law E, fun E => opDivAssign_law E, fun E => ofSqrt_law
      E, fun E => sqrt_law E, fun E => opDivSqrt_law E, fun E => opDivAssignSqrt_law E⟩

theorem mem_avx : MemLaws impl_avx ⟨1, 32, (some 32), 1, false⟩ :=
  ⟨load_law, load_aligned_law, ofPtr_law, ofList_law, store_law, store_aligned_law, fun E => ntOf (store_nt_law E), opStore_law,
      gather_avx_law, scatter_law⟩

theorem printLaw_avx (E : FEnv) : PrintLaw impl_avx.lanes (impl_avx.print E) := print_law E

theorem cmpLaws_avx : CmpLaws cmp_avx FEnv.f32 :=
  ⟨opLt_law, opLe_law, opEq_law, opGt_law, opGe_law, blend_law, any_law, any_law, opIndex_law⟩

end LFA.SV.AvxFloat32

namespace LFA.SV.AvxFloat32
theorem arith_avx2 : Arith impl_avx2 LaneOps.avx32 :=
  ⟨len_law, bcast_law, fun E => opAdd_law E, fun E => opSub_law E, fun E => opMul_law E, fun E => opDiv_law E, fun E =>
      opAddAssign_law E, fun E => opSubAssign_law E, fun E => opMulAssign_law E, fun E => opDivAssign_law E, fun E => ofSqrt_law
      E, fun E => sqrt_law E, fun E => opDivSqrt_law E, fun E => opDivAssignSqrt_law E⟩

theorem mem_avx2 : MemLaws impl_avx2 ⟨1, 32, (some 32), 1, true⟩ :=
  ⟨load_law, load_aligned_law, ofPtr_law, ofList_law, store_law, store_aligned_law, fun E => ntOf (store_nt_law E), opStore_law,
      gather_avx2_law, scatter_law⟩

theorem printLaw_avx2 (E : FEnv) : PrintLaw impl_avx2.lanes (impl_avx2.print E) := print_law E

theorem cmpLaws_avx2 : CmpLaws cmp_avx2 FEnv.f32 :=
  ⟨opLt_law, opLe_law, opEq_law, opGt_law, opGe_law, blend_law, any_law, any_law, opIndex_law⟩

end LFA.SV.AvxFloat32

namespace LFA.SV.AvxInt8
theorem arith : Arith impl (LaneOps.intSimd FOps.rsqrt FOps.toIntR) :=
  ⟨len_law, bcast_law, fun E => opAdd_law E, fun E => opSub_law E, fun E => opMul_law E, fun E => opDiv_law E, fun E =>
      opAddAssign_law E, fun E => opSubAssign_law E, fun E => opMulAssign_law E, fun E => opDivAssign_law E, fun E => ofSqrt_law
      E, fun E => sqrt_law E, fun E => opDivSqrt_law E, fun E => opDivAssignSqrt_law E⟩

theorem mem : MemLaws impl ⟨1, 32, (some 32), 1, true⟩ :=
  ⟨load_law, load_aligned_law, ofPtr_law, ofList_law, store_law, store_aligned_law, fun E => ntOf (store_nt_law E), opStore_law,
      gather_law, scatter_law⟩

theorem printLaw (E : FEnv) : PrintLaw impl.lanes (impl.print E) := print_law E

end LFA.SV.AvxInt8

namespace LFA.SV.AvxInt16
theorem arith : Arith impl (LaneOps.intSimd FOps.rsqrt FOps.toIntR) :=
  ⟨len_law, bcast_law, fun E => opAdd_law E, fun E => opSub_law E, fun E => opMul_law E, fun E => opDiv_law E, fun E =>
      opAddAssign_law E, fun E => opSubAssign_law E, fun E => opMulAssign_law E, fun E => opDivAssign_law E, fun E => ofSqrt_law
      E, fun E => sqrt_law E, fun E => opDivSqrt_law E, fun E => opDivAssignSqrt_law E⟩

theorem mem : MemLaws impl ⟨1, 32, (some 32), 1, true⟩ :=
  ⟨load_law, load_aligned_law, ofPtr_law, ofList_law, store_law, store_aligned_law, fun E => ntOf (store_nt_law E), opStore_law,
      gather_law, scatter_law⟩

theorem printLaw (E : FEnv) : PrintLaw impl.lanes (impl.print E) := print_law E

end LFA.SV.AvxInt16

namespace LFA.SV.AvxInt32
theorem arith : Arith impl (LaneOps.intSimd FOps.rsqrt FOps.toIntR) :=
  ⟨len_law, bcast_law, fun E => opAdd_law E, fun E => opSub_law E, fun E => opMul_law E, fun E => opDiv_law E, fun E =>
      opAddAssign_law E, fun E => opSubAssign_law E, fun E => opMulAssign_law E, fun E => opDivAssign_law E, fun E => ofSqrt_law
      E, fun E => sqrt_law E, fun E => opDivSqrt_law E, fun E => opDivAssignSqrt_law E⟩

theorem mem : MemLaws impl ⟨1, 32, (some 32), 1, true⟩ :=
  ⟨load_law, load_aligned_law, ofPtr_law, ofList_law, store_law, store_aligned_law, fun E => ntOf (store_nt_law E), opStore_law,
      gather_law, scatter_law⟩

theorem printLaw (E : FEnv) : PrintLaw impl.lanes (impl.print E) := print_law E

end LFA.SV.AvxInt32

namespace LFA.SV.Avx512Double8
theorem arith : Arith impl (LaneOps.ieee FEnv.f64) :=
  ⟨len_law, bcast_law, fun E => opAdd_law E, fun E => opSub_law E, fun E => opMul_law E, fun E => opDiv_law E, fun E =>
      opAddAssign_law E, fun E => opSubAssign_law E, fun E => opMulAssign_law E, fun E => opDivAssign_law E, fun E => sqrtFn_law
      E, fun E => sqrt_law E, fun E => (divOf (opDiv_law E) (sqrtFn_law E) :), fun E => (divOf (opDivAssign_law E) (sqrtFn_law
      E) :)⟩

theorem mem : MemLaws impl ⟨1, 64, (some 64), 1, true⟩ :=
  ⟨load_law, load_aligned_law, ofPtr_law, ofList_law, store_law, store_aligned_law, fun E => ntOf (store_nt_law E), opStore_law,
      gather_law, scatter_law⟩

theorem printLaw (E : FEnv) : PrintLaw impl.lanes (impl.print E) := print_law E

theorem cmpLaws : CmpLaws cmp FEnv.f64 :=
  ⟨opLt_law, opLe_law, opEq_law, opGt_law, opGe_law, blend_law, fun E => anyBits (any E), any_law, opIndex_law⟩

end LFA.SV.Avx512Double8

namespace LFA.SV.Avx512Double16
theorem arith : Arith impl (LaneOps.ieee FEnv.f64) :=
  ⟨len_law, bcast_law, fun E => opAdd_law E, fun E => opSub_law E, fun E => opMul_law E, fun E => opDiv_law E, fun E =>
      opAddAssign_law E, fun E => opSubAssign_law E, fun E => opMulAssign_law E, fun E => opDivAssign_law E, fun E => sqrtFn_law
      E, fun E => sqrt_law E, fun E => (divOf (opDiv_law E) (sqrtFn_law E) :), fun E => (divOf (opDivAssign_law E) (sqrtFn_law
      E) :)⟩

theorem mem : MemLaws impl ⟨1, 64, (some 64), 1, true⟩ :=
  ⟨load_law, load_aligned_law, ofPtr_law, ofList_law, store_law, store_aligned_law, fun E => ntOf (store_nt_law E), opStore_law,
      gather_law, scatter_law⟩

theorem printLaw (E : FEnv) : PrintLaw impl.lanes (impl.print E) := print_law E

theorem cmpLaws : CmpLaws cmp FEnv.f64 :=
  ⟨opLt_law, opLe_law, opEq_law, opGt_law, opGe_law, blend_law, fun E => anyBits (any E), any_law, opIndex_law⟩

end LFA.SV.Avx512Double16

namespace LFA.SV.Avx512Double32
theorem arith : Arith impl (LaneOps.ieee FEnv.f64) :=
  ⟨len_law, bcast_law, fun E => opAdd_law E, fun E => opSub_law E, fun E => opMul_law E, fun E => opDiv_law E, fun E =>
      opAddAssign_law E, fun E => opSubAssign_law E, fun E => opMulAssign_law E, fun E => opDivAssign_law E, fun E => sqrtFn_law
      E, fun E => sqrt_law E, fun E => (divOf (opDiv_law E) (sqrtFn_law E) :), fun E => (divOf (opDivAssign_law E) (sqrtFn_law
      E) :)⟩

theorem mem : MemLaws impl ⟨1, 64, (some 64), 1, true⟩ :=
  ⟨load_law, load_aligned_law, ofPtr_law, ofList_law, store_law, store_aligned_law, fun E => ntOf (store_nt_law E), opStore_law,
      gather_law, scatter_law⟩

theorem printLaw (E : FEnv) : PrintLaw impl.lanes (impl.print E) := print_law E

theorem cmpLaws : CmpLaws cmp FEnv.f64 :=
  ⟨opLt_law, opLe_law, opEq_law, opGt_law, opGe_law, blend_law, fun E => anyBits (any E), any_law, opIndex_law⟩

end LFA.SV.Avx512Double32

namespace LFA.SV.Avx512Float16
theorem arith : Arith impl LaneOps.avx512_32 :=
  ⟨len_law, bcast_law, fun E => opAdd_law E, fun E => opSub_law E, fun E => opMul_law E, fun E => opDiv_law E, fun E =>
      opAddAssign_law E, fun E => opSubAssign_law E, fun E => opMulAssign_law E, fun E => opDivAssign_law E, fun E => ofSqrt_law
      E, fun E => sqrt_law E, fun E => opDivSqrt_law E, fun E => opDivAssignSqrt_law E⟩

theorem mem : MemLaws impl ⟨1, 64, (some 64), 64, true⟩ :=
  ⟨load_law, load_aligned_law, ofPtr_law, ofList_law, store_law, store_aligned_law, fun E => ntOf (store_nt_law E), opStore_law,
      gather_law, scatter_law⟩

theorem printLaw (E : FEnv) : PrintLaw impl.lanes (impl.print E) := print_law E

theorem cmpLaws : CmpLaws cmp FEnv.f32 :=
  ⟨opLt_law, opLe_law, opEq_law, opGt_law, opGe_law, blend_law, fun E => anyBits (any E), any_law, opIndex_law⟩

end LFA.SV.Avx512Float16

namespace LFA.SV.Avx512Float32
theorem arith : Arith impl LaneOps.avx512_32 :=
  ⟨len_law, bcast_law, fun E => opAdd_law E, fun E => opSub_law E, fun E => opMul_law E, fun E => opDiv_law E, fun E =>
      opAddAssign_law E, fun E => opSubAssign_law E, fun E => opMulAssign_law E, fun E => opDivAssign_law E, fun E => ofSqrt_law
      E, fun E => sqrt_law E, fun E => opDivSqrt_law E, fun E => opDivAssignSqrt_law E⟩

theorem mem : MemLaws impl ⟨1, 64, (some 64), 64, true⟩ :=
  ⟨load_law, load_aligned_law, ofPtr_law, ofList_law, store_law, store_aligned_law, fun E => ntOf (store_nt_law E), opStore_law,
      gather_law, scatter_law⟩

theorem printLaw (E : FEnv) : PrintLaw impl.lanes (impl.print E) := print_law E

theorem cmpLaws : CmpLaws cmp FEnv.f32 :=
  ⟨opLt_law, opLe_law, opEq_law, opGt_law, opGe_law, blend_law, fun E => anyBits (any E), any_law, opIndex_law⟩

end LFA.SV.Avx512Float32

namespace LFA.SV.Avx512Int16
theorem arith : Arith impl (LaneOps.intSimd FOps.rsqrt14 FOps.toIntR) :=
  ⟨len_law, bcast_law, fun E => opAdd_law E, fun E => opSub_law E, fun E => opMul_law E, fun E => opDiv_law E, fun E =>
      opAddAssign_law E, fun E => opSubAssign_law E, fun E => opMulAssign_law E, fun E => opDivAssign_law E, fun E => ofSqrt_law
      E, fun E => sqrt_law E, fun E => opDivSqrt_law E, fun E => opDivAssignSqrt_law E⟩

theorem mem : MemLaws impl ⟨1, 64, (some 64), 1, true⟩ :=
  ⟨load_law, load_aligned_law, ofPtr_law, ofList_law, store_law, store_aligned_law, fun E => ntOf (store_nt_law E), opStore_law,
      gather_law, scatter_law⟩

theorem printLaw (E : FEnv) : PrintLaw impl.lanes (impl.print E) := print_law E

end LFA.SV.Avx512Int16

namespace LFA.SV.Avx512Int32
theorem arith : Arith impl (LaneOps.intSimd FOps.rsqrt14 FOps.toIntR) :=
  ⟨len_law, bcast_law, fun E => opAdd_law E, fun E => opSub_law E, fun E => opMul_law E, fun E => opDiv_law E, fun E =>
      opAddAssign_law E, fun E => opSubAssign_law E, fun E => opMulAssign_law E, fun E => opDivAssign_law E, fun E => ofSqrt_law
      E, fun E => sqrt_law E, fun E => opDivSqrt_law E, fun E => opDivAssignSqrt_law E⟩

theorem mem : MemLaws impl ⟨1, 64, (some 64), 1, true⟩ :=
  ⟨load_law, load_aligned_law, ofPtr_law, ofList_law, store_law, store_aligned_law, fun E => ntOf (store_nt_law E), opStore_law,
      gather_law, scatter_law⟩

theorem printLaw (E : FEnv) : PrintLaw impl.lanes (impl.print E) := print_law E

end LFA.SV.Avx512Int32

namespace LFA.SV.MicDouble8
theorem arith : Arith impl (LaneOps.ieee FEnv.f64) :=
  ⟨len_law, bcast_law, fun E => opAdd_law E, fun E => opSub_law E, fun E => opMul_law E, fun E => opDiv_law E, fun E =>
      opAddAssign_law E, fun E => opSubAssign_law E, fun E => opMulAssign_law E, fun E => opDivAssign_law E, fun E => sqrtFn_law
      E, fun E => sqrt_law E, fun E => (divOf (opDiv_law E) (sqrtFn_law E) :), fun E => (divOf (opDivAssign_law E) (sqrtFn_law
      E) :)⟩

theorem mem : MemLaws impl ⟨1, 64, (some 64), 32, true⟩ :=
  ⟨load_law, load_aligned_law, ofPtr_law, ofList_law, store_law, store_aligned_law, fun E => ntOf (store_nt_law E), opStore_law,
      gather_law, scatter_law⟩

theorem printLaw (E : FEnv) : PrintLaw impl.lanes (impl.print E) := print_law E

end LFA.SV.MicDouble8

namespace LFA.SV.MicDouble16
theorem arith : Arith impl (LaneOps.ieee FEnv.f64) :=
  ⟨len_law, bcast_law, fun E => opAdd_law E, fun E => opSub_law E, fun E => opMul_law E, fun E => opDiv_law E, fun E =>
      opAddAssign_law E, fun E => opSubAssign_law E, fun E => opMulAssign_law E, fun E => opDivAssign_law E, fun E => sqrtFn_law
      E, fun E => sqrt_law E, fun E => (divOf (opDiv_law E) (sqrtFn_law E) :), fun E => (divOf (opDivAssign_law E) (sqrtFn_law
      E) :)⟩

theorem mem : MemLaws impl ⟨1, 64, (some 64), 64, true⟩ :=
  ⟨load_law, load_aligned_law, ofPtr_law, ofList_law, store_law, store_aligned_law, fun E => ntOf (store_nt_law E), opStore_law,
      gather_law, scatter_law⟩

theorem printLaw (E : FEnv) : PrintLaw impl.lanes (impl.print E) := print_law E

end LFA.SV.MicDouble16

namespace LFA.SV.MicDouble32
theorem arith : Arith impl (LaneOps.ieee FEnv.f64) :=
  ⟨len_law, bcast_law, fun E => opAdd_law E, fun E => opSub_law E, fun E => opMul_law E, fun E => opDiv_law E, fun E =>
      opAddAssign_law E, fun E => opSubAssign_law E, fun E => opMulAssign_law E, fun E => opDivAssign_law E, fun E => sqrtFn_law
      E, fun E => sqrt_law E, fun E => (divOf (opDiv_law E) (sqrtFn_law E) :), fun E => (divOf (opDivAssign_law E) (sqrtFn_law
      E) :)⟩

theorem mem : MemLaws impl ⟨1, 64, (some 64), 64, true⟩ :=
  ⟨load_law, load_aligned_law, ofPtr_law, ofList_law, store_law, store_aligned_law, fun E => ntOf (store_nt_law E), opStore_law,
      gather_law, scatter_law⟩

theorem printLaw (E : FEnv) : PrintLaw impl.lanes (impl.print E) := print_law E

end LFA.SV.MicDouble32

namespace LFA.SV.MicFloat16
theorem arith : Arith impl LaneOps.mic32 :=
  ⟨len_law, bcast_law, fun E => opAdd_law E, fun E => opSub_law E, fun E => opMul_law E, fun E => opDiv_law E, fun E =>
      opAddAssign_law E, fun E => opSubAssign_law E, fun E => opMulAssign_law E, fun E => opDivAssign_law E, fun E => ofSqrt_law
      E, fun E => sqrt_law E, fun E => opDivSqrt_law E, fun E => opDivAssignSqrt_law E⟩

theorem mem : MemLaws impl ⟨1, 64, (some 64), 64, true⟩ :=
  ⟨load_law, load_aligned_law, ofPtr_law, ofList_law, store_law, store_aligned_law, fun E => ntOf (store_nt_law E), opStore_law,
      gather_law, scatter_law⟩

theorem printLaw (E : FEnv) : PrintLaw impl.lanes (impl.print E) := print_law E

end LFA.SV.MicFloat16

namespace LFA.SV.MicFloat32
theorem arith : Arith impl LaneOps.mic32 :=
  ⟨len_law, bcast_law, fun E => opAdd_law E, fun E => opSub_law E, fun E => opMul_law E, fun E => opDiv_law E, fun E =>
      opAddAssign_law E, fun E => opSubAssign_law E, fun E => opMulAssign_law E, fun E => opDivAssign_law E, fun E => ofSqrt_law
      E, fun E => sqrt_law E, fun E => opDivSqrt_law E, fun E => opDivAssignSqrt_law E⟩

theorem mem : MemLaws impl ⟨1, 64, (some 64), 64, true⟩ :=
  ⟨load_law, load_aligned_law, ofPtr_law, ofList_law, store_law, store_aligned_law, fun E => ntOf (store_nt_law E), opStore_law,
      gather_law, scatter_law⟩

theorem printLaw (E : FEnv) : PrintLaw impl.lanes (impl.print E) := print_law E

end LFA.SV.MicFloat32

namespace LFA.SV.NeonFloat4
theorem arith_neon : Arith impl_neon (LaneOps.neon32 neonRecip neonRsqrt) :=
  ⟨len_law, bcast_law, fun E => opAdd_law E, fun E => opSub_law E, fun E => opMul_law E, fun E => opDiv_neon_law E, fun E =>
      opAddAssign_law E, fun E => opSubAssign_law E, fun E => opMulAssign_law E, fun E => opDivAssign_neon_law E, fun E =>
      sqrtFn_neon_law E, fun E => sqrt_neon_law E, fun E => (divOf (opDiv_neon_law E) (sqrtFn_neon_law E) :), fun E => (divOf
      (opDivAssign_neon_law E) (sqrtFn_neon_law E) :)⟩

theorem mem_neon : MemLaws impl_neon ⟨1, 16, (some 1), 1, true⟩ :=
  ⟨load_law, load_aligned_law, ofPtr_law, ofList_law, store_law, store_aligned_law, fun E => ntOf (store_nt_neon_law E),
      opStore_law, gather_law, scatter_law⟩

theorem printLaw_neon (E : FEnv) : PrintLaw impl_neon.lanes (impl_neon.print E) := print_law E

end LFA.SV.NeonFloat4

namespace LFA.SV.NeonFloat4
theorem arith_neon_lp64 : Arith impl_neon_lp64 (LaneOps.neon32 neonRecip neonRsqrt) :=
  ⟨len_law, bcast_law, fun E => opAdd_law E, fun E => opSub_law E, fun E => opMul_law E, fun E => opDiv_neon_law E, fun E =>
      opAddAssign_law E, fun E => opSubAssign_law E, fun E => opMulAssign_law E, fun E => opDivAssign_neon_law E, fun E =>
      sqrtFn_neon_law E, fun E => sqrt_neon_law E, fun E => (divOf (opDiv_neon_law E) (sqrtFn_neon_law E) :), fun E => (divOf
      (opDivAssign_neon_law E) (sqrtFn_neon_law E) :)⟩

theorem mem_neon_lp64 : MemLaws impl_neon_lp64 ⟨1, 16, none, 1, true⟩ :=
  ⟨load_law, load_aligned_law, ofPtr_law, ofList_law, store_law, store_aligned_law, fun _ _ h => (nomatch h), opStore_law,
      gather_law, scatter_law⟩

theorem printLaw_neon_lp64 (E : FEnv) : PrintLaw impl_neon_lp64.lanes (impl_neon_lp64.print E) := print_law E

end LFA.SV.NeonFloat4

namespace LFA.SV.NeonFloat4
theorem arith_neon_prec : Arith impl_neon_prec (LaneOps.neon32 neonRecipPrec neonRsqrtPrec) :=
  ⟨len_law, bcast_law, fun E => opAdd_law E, fun E => opSub_law E, fun E => opMul_law E, fun E => opDiv_neon_prec_law E, fun E
      => opAddAssign_law E, fun E => opSubAssign_law E, fun E => opMulAssign_law E, fun E => opDivAssign_neon_prec_law E, fun E
      => sqrtFn_neon_prec_law E, fun E => sqrt_neon_prec_law E, fun E => (divOf (opDiv_neon_prec_law E) (sqrtFn_neon_prec_law E)
      :), fun E => (divOf (opDivAssign_neon_prec_law E) (sqrtFn_neon_prec_law E) :)⟩

theorem mem_neon_prec : MemLaws impl_neon_prec ⟨1, 16, (some 1), 1, true⟩ :=
  ⟨load_law, load_aligned_law, ofPtr_law, ofList_law, store_law, store_aligned_law, fun E => ntOf (store_nt_neon_law E),
      opStore_law, gather_law, scatter_law⟩

theorem printLaw_neon_prec (E : FEnv) : PrintLaw impl_neon_prec.lanes (impl_neon_prec.print E) := print_law E

end LFA.SV.NeonFloat4

namespace LFA.SV.NeonFloat4
theorem arith_neon_prec_lp64 : Arith impl_neon_prec_lp64 (LaneOps.neon32 neonRecipPrec neonRsqrtPrec) :=
  ⟨len_law, bcast_law, fun E => opAdd_law E, fun E => opSub_law E, fun E => opMul_law E, fun E => opDiv_neon_prec_law E, fun E
      => opAddAssign_law E, fun E => opSubAssign_law E, fun E => opMulAssign_law E, fun E => opDivAssign_neon_prec_law E, fun E
      => sqrtFn_neon_prec_law E, fun E => sqrt_neon_prec_law E, fun E => (divOf (opDiv_neon_prec_law E) (sqrtFn_neon_prec_law E)
      :), fun E => (divOf (opDivAssign_neon_prec_law E) (sqrtFn_neon_prec_law E) :)⟩

theorem mem_neon_prec_lp64 : MemLaws impl_neon_prec_lp64 ⟨1, 16, none, 1, true⟩ :=
  ⟨load_law, load_aligned_law, ofPtr_law, ofList_law, store_law, store_aligned_law, fun _ _ h => (nomatch h), opStore_law,
      gather_law, scatter_law⟩

theorem printLaw_neon_prec_lp64 (E : FEnv) : PrintLaw impl_neon_prec_lp64.lanes (impl_neon_prec_lp64.print E) := print_law E

end LFA.SV.NeonFloat4

namespace LFA.SV.NeonFloat8
theorem arith_neon : Arith impl_neon (LaneOps.neon32 neonRecip neonRsqrt) :=
  ⟨len_law, bcast_law, fun E => opAdd_law E, fun E => opSub_law E, fun E => opMul_law E, fun E => opDiv_neon_law E, fun E =>
      opAddAssign_law E, fun E => opSubAssign_law E, fun E => opMulAssign_law E, fun E => opDivAssign_neon_law E, fun E =>
      sqrtFn_neon_law E, fun E => sqrt_neon_law E, fun E => (divOf (opDiv_neon_law E) (sqrtFn_neon_law E) :), fun E => (divOf
      (opDivAssign_neon_law E) (sqrtFn_neon_law E) :)⟩

theorem mem_neon : MemLaws impl_neon ⟨1, 32, (some 1), 1, true⟩ :=
  ⟨load_law, load_aligned_law, ofPtr_law, ofList_law, store_law, store_aligned_law, fun E => ntOf (store_nt_neon_law E),
      opStore_law, gather_law, scatter_law⟩

theorem printLaw_neon (E : FEnv) : PrintLaw impl_neon.lanes (impl_neon.print E) := print_law E

end LFA.SV.NeonFloat8

namespace LFA.SV.NeonFloat8
theorem arith_neon_lp64 : Arith impl_neon_lp64 (LaneOps.neon32 neonRecip neonRsqrt) :=
  ⟨len_law, bcast_law, fun E => opAdd_law E, fun E => opSub_law E, fun E => opMul_law E, fun E => opDiv_neon_law E, fun E =>
      opAddAssign_law E, fun E => opSubAssign_law E, fun E => opMulAssign_law E, fun E => opDivAssign_neon_law E, fun E =>
      sqrtFn_neon_law E, fun E => sqrt_neon_law E, fun E => (divOf (opDiv_neon_law E) (sqrtFn_neon_law E) :), fun E => (divOf
      (opDivAssign_neon_law E) (sqrtFn_neon_law E) :)⟩

theorem mem_neon_lp64 : MemLaws impl_neon_lp64 ⟨1, 32, none, 1, true⟩ :=
  ⟨load_law, load_aligned_law, ofPtr_law, ofList_law, store_law, store_aligned_law, fun _ _ h => (nomatch h), opStore_law,
      gather_law, scatter_law⟩

theorem printLaw_neon_lp64 (E : FEnv) : PrintLaw impl_neon_lp64.lanes (impl_neon_lp64.print E) := print_law E

end LFA.SV.NeonFloat8

namespace LFA.SV.NeonFloat8
theorem arith_neon_prec : Arith impl_neon_prec (LaneOps.neon32 neonRecipPrec neonRsqrtPrec) :=
  ⟨len_law, bcast_law, fun E => opAdd_law E, fun E => opSub_law E, fun E => opMul_law E, fun E => opDiv_neon_prec_law E, fun E
      => opAddAssign_law E, fun E => opSubAssign_law E, fun E => opMulAssign_law E, fun E => opDivAssign_neon_prec_law E, fun E
      => sqrtFn_neon_prec_law E, fun E => sqrt_neon_prec_law E, fun E => (divOf (opDiv_neon_prec_law E) (sqrtFn_neon_prec_law E)
      :), fun E => (divOf (opDivAssign_neon_prec_law E) (sqrtFn_neon_prec_law E) :)⟩

theorem mem_neon_prec : MemLaws impl_neon_prec ⟨1, 32, (some 1), 1, true⟩ :=
  ⟨load_law, load_aligned_law, ofPtr_law, ofList_law, store_law, store_aligned_law, fun E => ntOf (store_nt_neon_law E),
      opStore_law, gather_law, scatter_law⟩

theorem printLaw_neon_prec (E : FEnv) : PrintLaw impl_neon_prec.lanes (impl_neon_prec.print E) := print_law E

end LFA.SV.NeonFloat8

namespace LFA.SV.NeonFloat8
theorem arith_neon_prec_lp64 : Arith impl_neon_prec_lp64 (LaneOps.neon32 neonRecipPrec neonRsqrtPrec) :=
  ⟨len_law, bcast_law, fun E => opAdd_law E, fun E => opSub_law E, fun E => opMul_law E, fun E => opDiv_neon_prec_law E, fun E
      => opAddAssign_law E, fun E => opSubAssign_law E, fun E => opMulAssign_law E, fun E => opDivAssign_neon_prec_law E, fun E
      => sqrtFn_neon_prec_law E, fun E => sqrt_neon_prec_law E, fun E => (divOf (opDiv_neon_prec_law E) (sqrtFn_neon_prec_law E)
      :), fun E => (divOf (opDivAssign_neon_prec_law E) (sqrtFn_neon_prec_law E) :)⟩

theorem mem_neon_prec_lp64 : MemLaws impl_neon_prec_lp64 ⟨1, 32, none, 1, true⟩ :=
  ⟨load_law, load_aligned_law, ofPtr_law, ofList_law, store_law, store_aligned_law, fun _ _ h => (nomatch h), opStore_law,
      gather_law, scatter_law⟩

theorem printLaw_neon_prec_lp64 (E : FEnv) : PrintLaw impl_neon_prec_lp64.lanes (impl_neon_prec_lp64.print E) := print_law E

end LFA.SV.NeonFloat8

namespace LFA.SV.NeonFloat16
theorem arith_neon : Arith impl_neon (LaneOps.neon32 neonRecip neonRsqrt) :=
  ⟨len_law, bcast_law, fun E => opAdd_law E, fun E => opSub_law E, fun E => opMul_law E, fun E => opDiv_neon_law E, fun E =>
      opAddAssign_law E, fun E => opSubAssign_law E, fun E => opMulAssign_law E, fun E => opDivAssign_neon_law E, fun E =>
      sqrtFn_neon_law E, fun E => sqrt_neon_law E, fun E => (divOf (opDiv_neon_law E) (sqrtFn_neon_law E) :), fun E => (divOf
      (opDivAssign_neon_law E) (sqrtFn_neon_law E) :)⟩

theorem mem_neon : MemLaws impl_neon ⟨1, 64, (some 1), 1, true⟩ :=
  ⟨load_law, load_aligned_law, ofPtr_law, ofList_law, store_law, store_aligned_law, fun E => ntOf (store_nt_neon_law E),
      opStore_law, gather_law, scatter_law⟩

theorem printLaw_neon (E : FEnv) : PrintLaw impl_neon.lanes (impl_neon.print E) := print_law E

end LFA.SV.NeonFloat16

namespace LFA.SV.NeonFloat16
theorem arith_neon_lp64 : Arith impl_neon_lp64 (LaneOps.neon32 neonRecip neonRsqrt) :=
  ⟨len_law, bcast_law, fun E => opAdd_law E, fun E => opSub_law E, fun E => opMul_law E, fun E => opDiv_neon_law E, fun E =>
      opAddAssign_law E, fun E => opSubAssign_law E, fun E => opMulAssign_law E, fun E => opDivAssign_neon_law E, fun E =>
      sqrtFn_neon_law E, fun E => sqrt_neon_law E, fun E => (divOf (opDiv_neon_law E) (sqrtFn_neon_law E) :), fun E => (divOf
      (opDivAssign_neon_law E) (sqrtFn_neon_law E) :)⟩

theorem mem_neon_lp64 : MemLaws impl_neon_lp64 ⟨1, 64, none, 1, true⟩ :=
  ⟨load_law, load_aligned_law, ofPtr_law, ofList_law, store_law, store_aligned_law, fun _ _ h => (nomatch h), opStore_law,
      gather_law, scatter_law⟩

theorem printLaw_neon_lp64 (E : FEnv) : PrintLaw impl_neon_lp64.lanes (impl_neon_lp64.print E) := print_law E

end LFA.SV.NeonFloat16

namespace LFA.SV.NeonFloat16
theorem arith_neon_prec : Arith impl_neon_prec (LaneOps.neon32 neonRecipPrec neonRsqrtPrec) :=
  ⟨len_law, bcast_law, fun E => opAdd_law E, fun E => opSub_law E, fun E => opMul_law E, fun E => opDiv_neon_prec_law E, fun E
      => opAddAssign_law E, fun E => opSubAssign_law E, fun E => opMulAssign_law E, fun E => opDivAssign_neon_prec_law E, fun E
      => sqrtFn_neon_prec_law E, fun E => sqrt_neon_prec_law E, fun E => (divOf (opDiv_neon_prec_law E) (sqrtFn_neon_prec_law E)
      :), fun E => (divOf (opDivAssign_neon_prec_law E) (sqrtFn_neon_prec_law E) :)⟩

theorem mem_neon_prec : MemLaws impl_neon_prec ⟨1, 64, (some 1), 1, true⟩ :=
  ⟨load_law, load_aligned_law, ofPtr_law, ofList_law, store_law, store_aligned_law, fun E => ntOf (store_nt_neon_law E),
      opStore_law, gather_law, scatter_law⟩

theorem printLaw_neon_prec (E : FEnv) : PrintLaw impl_neon_prec.lanes (impl_neon_prec.print E) := print_law E

end LFA.SV.NeonFloat16

namespace LFA.SV.NeonFloat16
theorem arith_neon_prec_lp64 : Arith impl_neon_prec_lp64 (LaneOps.neon32 neonRecipPrec neonRsqrtPrec) :=
  ⟨len_law, bcast_law, fun E => opAdd_law E, fun E => opSub_law E, fun E => opMul_law E, fun E => opDiv_neon_prec_law E, fun E
      => opAddAssign_law E, fun E => opSubAssign_law E, fun E => opMulAssign_law E, fun E => opDivAssign_neon_prec_law E, fun E
      => sqrtFn_neon_prec_law E, fun E => sqrt_neon_prec_law E, fun E => (divOf (opDiv_neon_prec_law E) (sqrtFn_neon_prec_law E)
      :), fun E => (divOf (opDivAssign_neon_prec_law E) (sqrtFn_neon_prec_law E) :)⟩

theorem mem_neon_prec_lp64 : MemLaws impl_neon_prec_lp64 ⟨1, 64, none, 1, true⟩ :=
  ⟨load_law, load_aligned_law, ofPtr_law, ofList_law, store_law, store_aligned_law, fun _ _ h => (nomatch h), opStore_law,
      gather_law, scatter_law⟩

theorem printLaw_neon_prec_lp64 (E : FEnv) : PrintLaw impl_neon_prec_lp64.lanes (impl_neon_prec_lp64.print E) := print_law E

end LFA.SV.NeonFloat16

namespace LFA.SV.NeonFloat32
theorem arith_neon : Arith impl_neon (LaneOps.neon32 neonRecip neonRsqrt) :=
  ⟨len_law, bcast_law, fun E => opAdd_law E, fun E => opSub_law E, fun E => opMul_law E, fun E => opDiv_neon_law E, fun E =>
      opAddAssign_law E, fun E => opSubAssign_law E, fun E => opMulAssign_law E, fun E => opDivAssign_neon_law E, fun E =>
      sqrtFn_neon_law E, fun E => sqrt_neon_law E, fun E => (divOf (opDiv_neon_law E) (sqrtFn_neon_law E) :), fun E => (divOf
      (opDivAssign_neon_law E) (sqrtFn_neon_law E) :)⟩

theorem mem_neon : MemLaws impl_neon ⟨1, 128, (some 1), 1, true⟩ :=
  ⟨load_law, load_aligned_law, ofPtr_law, ofList_law, store_law, store_aligned_law, fun E => ntOf (store_nt_neon_law E),
      opStore_law, gather_law, scatter_law⟩

theorem printLaw_neon (E : FEnv) : PrintLaw impl_neon.lanes (impl_neon.print E) := print_law E

end LFA.SV.NeonFloat32

namespace LFA.SV.NeonFloat32
theorem arith_neon_lp64 : Arith impl_neon_lp64 (LaneOps.neon32 neonRecip neonRsqrt) :=
  ⟨len_law, bcast_law, fun E => opAdd_law E, fun E => opSub_law E, fun E => opMul_law E, fun E => opDiv_neon_law E, fun E =>
      opAddAssign_law E, fun E => opSubAssign_law E, fun E => opMulAssign_law E, fun E => opDivAssign_neon_law E, fun E =>
      sqrtFn_neon_law E, fun E => sqrt_neon_law E, fun E => (divOf (opDiv_neon_law E) (sqrtFn_neon_law E) :), fun E => (divOf
      (opDivAssign_neon_law E) (sqrtFn_neon_law E) :)⟩

theorem mem_neon_lp64 : MemLaws impl_neon_lp64 ⟨1, 128, none, 1, true⟩ :=
  ⟨load_law, load_aligned_law, ofPtr_law, ofList_law, store_law, store_aligned_law, fun _ _ h => (nomatch h), opStore_law,
      gather_law, scatter_law⟩

theorem printLaw_neon_lp64 (E : FEnv) : PrintLaw impl_neon_lp64.lanes (impl_neon_lp64.print E) := print_law E

end LFA.SV.NeonFloat32

namespace LFA.SV.NeonFloat32
theorem arith_neon_prec : Arith impl_neon_prec (LaneOps.neon32 neonRecipPrec neonRsqrtPrec) :=
  ⟨len_law, bcast_law, fun E => opAdd_law E, fun E => opSub_law E, fun E => opMul_law E, fun E => opDiv_neon_prec_law E, fun E
      => opAddAssign_law E, fun E => opSubAssign_law E, fun E => opMulAssign_law E, fun E => opDivAssign_neon_prec_law E, fun E
      => sqrtFn_neon_prec_law E, fun E => sqrt_neon_prec_law E, fun E => (divOf (opDiv_neon_prec_law E) (sqrtFn_neon_prec_law E)
      :), fun E => (divOf (opDivAssign_neon_prec_law E) (sqrtFn_neon_prec_law E) :)⟩

theorem mem_neon_prec : MemLaws impl_neon_prec ⟨1, 128, (some 1), 1, true⟩ :=
  ⟨load_law, load_aligned_law, ofPtr_law, ofList_law, store_law, store_aligned_law, fun E => ntOf (store_nt_neon_law E),
      opStore_law, gather_law, scatter_law⟩

theorem printLaw_neon_prec (E : FEnv) : PrintLaw impl_neon_prec.lanes (impl_neon_prec.print E) := print_law E

end LFA.SV.NeonFloat32

namespace LFA.SV.NeonFloat32
theorem arith_neon_prec_lp64 : Arith impl_neon_prec_lp64 (LaneOps.neon32 neonRecipPrec neonRsqrtPrec) :=
  ⟨len_law, bcast_law, fun E => opAdd_law E, fun E => opSub_law E, fun E => opMul_law E, fun E => opDiv_neon_prec_law E, fun E
      => opAddAssign_law E, fun E => opSubAssign_law E, fun E => opMulAssign_law E, fun E => opDivAssign_neon_prec_law E, fun E
      => sqrtFn_neon_prec_law E, fun E => sqrt_neon_prec_law E, fun E => (divOf (opDiv_neon_prec_law E) (sqrtFn_neon_prec_law E)
      :), fun E => (divOf (opDivAssign_neon_prec_law E) (sqrtFn_neon_prec_law E) :)⟩

theorem mem_neon_prec_lp64 : MemLaws impl_neon_prec_lp64 ⟨1, 128, none, 1, true⟩ :=
  ⟨load_law, load_aligned_law, ofPtr_law, ofList_law, store_law, store_aligned_law, fun _ _ h => (nomatch h), opStore_law,
      gather_law, scatter_law⟩

theorem printLaw_neon_prec_lp64 (E : FEnv) : PrintLaw impl_neon_prec_lp64.lanes (impl_neon_prec_lp64.print E) := print_law E

end LFA.SV.NeonFloat32

namespace LFA.SV.QpxDouble4
theorem arith : Arith impl LaneOps.qpx64 :=
  ⟨len_law, bcast_law, fun E => opAdd_law E, fun E => opSub_law E, fun E => opMul_law E, fun E => opDiv_law E, fun E =>
      opAddAssign_law E, fun E => opSubAssign_law E, fun E => opMulAssign_law E, fun E => opDivAssign_law E, fun E => ofSqrt_law
      E, fun E => sqrt_law E, fun E => opDivSqrt_law E, fun E => opDivAssignSqrt_law E⟩

theorem mem : MemLaws impl ⟨32, 32, (some 32), 1, true⟩ :=
  ⟨load_law, load_aligned_law, ofPtr_law, ofList_law, store_law, store_aligned_law, fun E => ntOf (store_nt_law E), opStore_law,
      gather_law, scatter_law⟩

theorem printLaw (E : FEnv) : PrintLaw impl.lanes (impl.print E) := print_law E

end LFA.SV.QpxDouble4

namespace LFA.SV.QpxDouble8
theorem arith : Arith impl LaneOps.qpx64 :=
  ⟨len_law, bcast_law, fun E => opAdd_law E, fun E => opSub_law E, fun E => opMul_law E, fun E => opDiv_law E, fun E =>
      opAddAssign_law E, fun E => opSubAssign_law E, fun E => opMulAssign_law E, fun E => opDivAssign_law E, fun E => ofSqrt_law
      E, fun E => sqrt_law E, fun E => opDivSqrt_law E, fun E => opDivAssignSqrt_law E⟩

theorem mem : MemLaws impl ⟨32, 32, (some 32), 1, true⟩ :=
  ⟨load_law, load_aligned_law, ofPtr_law, ofList_law, store_law, store_aligned_law, fun E => ntOf (store_nt_law E), opStore_law,
      gather_law, scatter_law⟩

theorem printLaw (E : FEnv) : PrintLaw impl.lanes (impl.print E) := print_law E

end LFA.SV.QpxDouble8

namespace LFA.SV.QpxDouble16
theorem arith : Arith impl LaneOps.qpx64 :=
  ⟨len_law, bcast_law, fun E => opAdd_law E, fun E => opSub_law E, fun E => opMul_law E, fun E => opDiv_law E, fun E =>
      opAddAssign_law E, fun E => opSubAssign_law E, fun E => opMulAssign_law E, fun E => opDivAssign_law E, fun E => ofSqrt_law
      E, fun E => sqrt_law E, fun E => opDivSqrt_law E, fun E => opDivAssignSqrt_law E⟩

theorem mem : MemLaws impl ⟨32, 32, (some 32), 1, true⟩ :=
  ⟨load_law, load_aligned_law, ofPtr_law, ofList_law, store_law, store_aligned_law, fun E => ntOf (store_nt_law E), opStore_law,
      gather_law, scatter_law⟩

theorem printLaw (E : FEnv) : PrintLaw impl.lanes (impl.print E) := print_law E

end LFA.SV.QpxDouble16

namespace LFA.SV.QpxDouble32
theorem arith : Arith impl LaneOps.qpx64 :=
  ⟨len_law, bcast_law, fun E => opAdd_law E, fun E => opSub_law E, fun E => opMul_law E, fun E => opDiv_law E, fun E =>
      opAddAssign_law E, fun E => opSubAssign_law E, fun E => opMulAssign_law E, fun E => opDivAssign_law E, fun E => ofSqrt_law
      E, fun E => sqrt_law E, fun E => opDivSqrt_law E, fun E => opDivAssignSqrt_law E⟩

theorem mem : MemLaws impl ⟨32, 32, (some 32), 1, true⟩ :=
  ⟨load_law, load_aligned_law, ofPtr_law, ofList_law, store_law, store_aligned_law, fun E => ntOf (store_nt_law E), opStore_law,
      gather_law, scatter_law⟩

end LFA.SV.QpxDouble32

namespace LFA.SV.ScalarDouble1
theorem arith : Arith impl (LaneOps.ieee FEnv.f64) :=
  ⟨len_law, bcast_law, fun E => opAdd_law E, fun E => opSub_law E, fun E => opMul_law E, fun E => opDiv_law E, fun E =>
      opAddAssign_law E, fun E => opSubAssign_law E, fun E => opMulAssign_law E, fun E => opDivAssign_law E, fun E => sqrtFn_law
      E, fun E => sqrt_law E, fun E => (divOf (opDiv_law E) (sqrtFn_law E) :), fun E => (divOf (opDivAssign_law E) (sqrtFn_law
      E) :)⟩

theorem mem : MemLaws impl ⟨1, 1, (some 1), 1, true⟩ :=
  ⟨load_law, load_aligned_law, ofPtr_law, ofList_law, store_law, store_aligned_law, fun E => ntOf (store_nt_law E), opStore_law,
      gather_law, scatter_law⟩

theorem printLaw (E : FEnv) : PrintLaw impl.lanes (impl.print E) := print_law E

theorem cmpLaws : CmpLaws cmp FEnv.f64 :=
  ⟨opLt_law, opLe_law, opEq_law, opGt_law, opGe_law, blend_law, fun E => anyBits (any E), any_law, opIndex_law⟩

end LFA.SV.ScalarDouble1

namespace LFA.SV.ScalarDouble2
theorem arith : Arith impl (LaneOps.ieee FEnv.f64) :=
  ⟨len_law, bcast_law, fun E => opAdd_law E, fun E => opSub_law E, fun E => opMul_law E, fun E => opDiv_law E, fun E =>
      opAddAssign_law E, fun E => opSubAssign_law E, fun E => opMulAssign_law E, fun E => opDivAssign_law E, fun E => sqrtFn_law
      E, fun E => sqrt_law E, fun E => (divOf (opDiv_law E) (sqrtFn_law E) :), fun E => (divOf (opDivAssign_law E) (sqrtFn_law
      E) :)⟩

theorem mem : MemLaws impl ⟨1, 1, (some 1), 1, true⟩ :=
  ⟨load_law, load_aligned_law, ofPtr_law, ofList_law, store_law, store_aligned_law, fun E => ntOf (store_nt_law E), opStore_law,
      gather_law, scatter_law⟩

theorem printLaw (E : FEnv) : PrintLaw impl.lanes (impl.print E) := print_law E

theorem cmpLaws : CmpLaws cmp FEnv.f64 :=
  ⟨opLt_law, opLe_law, opEq_law, opGt_law, opGe_law, blend_law, fun E => anyBits (any E), any_law, opIndex_law⟩

end LFA.SV.ScalarDouble2

namespace LFA.SV.ScalarDouble4
theorem arith : Arith impl (LaneOps.ieee FEnv.f64) :=
  ⟨len_law, bcast_law, fun E => opAdd_law E, fun E => opSub_law E, fun E => opMul_law E, fun E => opDiv_law E, fun E =>
      opAddAssign_law E, fun E => opSubAssign_law E, fun E => opMulAssign_law E, fun E => opDivAssign_law E, fun E => sqrtFn_law
      E, fun E => sqrt_law E, fun E => (divOf (opDiv_law E) (sqrtFn_law E) :), fun E => (divOf (opDivAssign_law E) (sqrtFn_law
      E) :)⟩

theorem mem : MemLaws impl ⟨1, 1, (some 1), 1, true⟩ :=
  ⟨load_law, load_aligned_law, ofPtr_law, ofList_law, store_law, store_aligned_law, fun E => ntOf (store_nt_law E), opStore_law,
      gather_law, scatter_law⟩

theorem printLaw (E : FEnv) : PrintLaw impl.lanes (impl.print E) := print_law E

theorem cmpLaws : CmpLaws cmp FEnv.f64 :=
  ⟨opLt_law, opLe_law, opEq_law, opGt_law, opGe_law, blend_law, fun E => anyBits (any E), any_law, opIndex_law⟩

end LFA.SV.ScalarDouble4

namespace LFA.SV.ScalarDouble8
theorem arith : Arith impl (LaneOps.ieee FEnv.f64) :=
  ⟨len_law, bcast_law, fun E => opAdd_law E, fun E => opSub_law E, fun E => opMul_law E, fun E => opDiv_law E, fun E =>
      opAddAssign_law E, fun E => opSubAssign_law E, fun E => opMulAssign_law E, fun E => opDivAssign_law E, fun E => sqrtFn_law
      E, fun E => sqrt_law E, fun E => (divOf (opDiv_law E) (sqrtFn_law E) :), fun E => (divOf (opDivAssign_law E) (sqrtFn_law
      E) :)⟩

theorem mem : MemLaws impl ⟨1, 1, (some 1), 1, true⟩ :=
  ⟨load_law, load_aligned_law, ofPtr_law, ofList_law, store_law, store_aligned_law, fun E => ntOf (store_nt_law E), opStore_law,
      gather_law, scatter_law⟩

theorem printLaw (E : FEnv) : PrintLaw impl.lanes (impl.print E) := print_law E

theorem cmpLaws : CmpLaws cmp FEnv.f64 :=
  ⟨opLt_law, opLe_law, opEq_law, opGt_law, opGe_law, blend_law, fun E => anyBits (any E), any_law, opIndex_law⟩

end LFA.SV.ScalarDouble8

namespace LFA.SV.ScalarDouble16
theorem arith : Arith impl (LaneOps.ieee FEnv.f64) :=
  ⟨len_law, bcast_law, fun E => opAdd_law E, fun E => opSub_law E, fun E => opMul_law E, fun E => opDiv_law E, fun E =>
      opAddAssign_law E, fun E => opSubAssign_law E, fun E => opMulAssign_law E, fun E => opDivAssign_law E, fun E => sqrtFn_law
      E, fun E => sqrt_law E, fun E => (divOf (opDiv_law E) (sqrtFn_law E) :), fun E => (divOf (opDivAssign_law E) (sqrtFn_law
      E) :)⟩

theorem mem : MemLaws impl ⟨1, 1, (some 1), 1, true⟩ :=
  ⟨load_law, load_aligned_law, ofPtr_law, ofList_law, store_law, store_aligned_law, fun E => ntOf (store_nt_law E), opStore_law,
      gather_law, scatter_law⟩

theorem printLaw (E : FEnv) : PrintLaw impl.lanes (impl.print E) := print_law E

theorem cmpLaws : CmpLaws cmp FEnv.f64 :=
  ⟨opLt_law, opLe_law, opEq_law, opGt_law, opGe_law, blend_law, fun E => anyBits (any E), any_law, opIndex_law⟩

end LFA.SV.ScalarDouble16

namespace LFA.SV.ScalarDouble32
theorem arith : Arith impl (LaneOps.ieee FEnv.f64) :=
  ⟨len_law, bcast_law, fun E => opAdd_law E, fun E => opSub_law E, fun E => opMul_law E, fun E => opDiv_law E, fun E =>
      opAddAssign_law E, fun E => opSubAssign_law E, fun E => opMulAssign_law E, fun E => opDivAssign_law E, fun E => sqrtFn_law
      E, fun E => sqrt_law E, fun E => (divOf (opDiv_law E) (sqrtFn_law E) :), fun E => (divOf (opDivAssign_law E) (sqrtFn_law
      E) :)⟩

theorem mem : MemLaws impl ⟨1, 1, (some 1), 1, true⟩ :=
  ⟨load_law, load_aligned_law, ofPtr_law, ofList_law, store_law, store_aligned_law, fun E => ntOf (store_nt_law E), opStore_law,
      gather_law, scatter_law⟩

theorem printLaw (E : FEnv) : PrintLaw impl.lanes (impl.print E) := print_law E

theorem cmpLaws : CmpLaws cmp FEnv.f64 :=
  ⟨opLt_law, opLe_law, opEq_law, opGt_law, opGe_law, blend_law, fun E => anyBits (any E), any_law, opIndex_law⟩

end LFA.SV.ScalarDouble32

namespace LFA.SV.ScalarFloat1
theorem arith : Arith impl (LaneOps.ieee FEnv.f32) :=
  ⟨len_law, bcast_law, fun E => opAdd_law E, fun E => opSub_law E, fun E => opMul_law E, fun E => opDiv_law E, fun E =>
      opAddAssign_law E, fun E => opSubAssign_law E, fun E => opMulAssign_law E, fun E => opDivAssign_law E, fun E => sqrtFn_law
      E, fun E => sqrt_law E, fun E => (divOf (opDiv_law E) (sqrtFn_law E) :), fun E => (divOf (opDivAssign_law E) (sqrtFn_law
      E) :)⟩

theorem mem : MemLaws impl ⟨1, 1, (some 1), 1, true⟩ :=
  ⟨load_law, load_aligned_law, ofPtr_law, ofList_law, store_law, store_aligned_law, fun E => ntOf (store_nt_law E), opStore_law,
      gather_law, scatter_law⟩

theorem printLaw (E : FEnv) : PrintLaw impl.lanes (impl.print E) := print_law E

theorem cmpLaws : CmpLaws cmp FEnv.f32 :=
  ⟨opLt_law, opLe_law, opEq_law, opGt_law, opGe_law, blend_law, fun E => anyBits (any E), any_law, opIndex_law⟩

end LFA.SV.ScalarFloat1

namespace LFA.SV.ScalarFloat2
theorem arith : Arith impl (LaneOps.ieee FEnv.f32) :=
  ⟨len_law, bcast_law, fun E => opAdd_law E, fun E => opSub_law E, fun E => opMul_law E, fun E => opDiv_law E, fun E =>
      opAddAssign_law E, fun E => opSubAssign_law E, fun E => opMulAssign_law E, fun E => opDivAssign_law E, fun E => sqrtFn_law
      E, fun E => sqrt_law E, fun E => (divOf (opDiv_law E) (sqrtFn_law E) :), fun E => (divOf (opDivAssign_law E) (sqrtFn_law
      E) :)⟩

theorem mem : MemLaws impl ⟨1, 1, (some 1), 1, true⟩ :=
  ⟨load_law, load_aligned_law, ofPtr_law, ofList_law, store_law, store_aligned_law, fun E => ntOf (store_nt_law E), opStore_law,
      gather_law, scatter_law⟩

theorem printLaw (E : FEnv) : PrintLaw impl.lanes (impl.print E) := print_law E

theorem cmpLaws : CmpLaws cmp FEnv.f32 :=
  ⟨opLt_law, opLe_law, opEq_law, opGt_law, opGe_law, blend_law, fun E => anyBits (any E), any_law, opIndex_law⟩

end LFA.SV.ScalarFloat2

namespace LFA.SV.ScalarFloat4
theorem arith : Arith impl (LaneOps.ieee FEnv.f32) :=
  ⟨len_law, bcast_law, fun E => opAdd_law E, fun E => opSub_law E, fun E => opMul_law E, fun E => opDiv_law E, fun E =>
      opAddAssign_law E, fun E => opSubAssign_law E, fun E => opMulAssign_law E, fun E => opDivAssign_law E, fun E => sqrtFn_law
      E, fun E => sqrt_law E, fun E => (divOf (opDiv_law E) (sqrtFn_law E) :), fun E => (divOf (opDivAssign_law E) (sqrtFn_law
      E) :)⟩

theorem mem : MemLaws impl ⟨1, 1, (some 1), 1, true⟩ :=
  ⟨load_law, load_aligned_law, ofPtr_law, ofList_law, store_law, store_aligned_law, fun E => ntOf (store_nt_law E), opStore_law,
      gather_law, scatter_law⟩

theorem printLaw (E : FEnv) : PrintLaw impl.lanes (impl.print E) := print_law E

theorem cmpLaws : CmpLaws cmp FEnv.f32 :=
  ⟨opLt_law, opLe_law, opEq_law, opGt_law, opGe_law, blend_law, fun E => anyBits (any E), any_law, opIndex_law⟩

end LFA.SV.ScalarFloat4

namespace LFA.SV.ScalarFloat8
theorem arith : Arith impl (LaneOps.ieee FEnv.f32) :=
  ⟨len_law, bcast_law, fun E => opAdd_law E, fun E => opSub_law E, fun E => opMul_law E, fun E => opDiv_law E, fun E =>
      opAddAssign_law E, fun E => opSubAssign_law E, fun E => opMulAssign_law E, fun E => opDivAssign_law E, fun E => sqrtFn_law
      E, fun E => sqrt_law E, fun E => (divOf (opDiv_law E) (sqrtFn_law E) :), fun E => (divOf (opDivAssign_law E) (sqrtFn_law
      E) :)⟩

theorem mem : MemLaws impl ⟨1, 1, (some 1), 1, true⟩ :=
  ⟨load_law, load_aligned_law, ofPtr_law, ofList_law, store_law, store_aligned_law, fun E => ntOf (store_nt_law E), opStore_law,
      gather_law, scatter_law⟩

theorem printLaw (E : FEnv) : PrintLaw impl.lanes (impl.print E) := print_law E

theorem cmpLaws : CmpLaws cmp FEnv.f32 :=
  ⟨opLt_law, opLe_law, opEq_law, opGt_law, opGe_law, blend_law, fun E => anyBits (any E), any_law, opIndex_law⟩

end LFA.SV.ScalarFloat8

namespace LFA.SV.ScalarFloat16
theorem arith : Arith impl (LaneOps.ieee FEnv.f32) :=
  ⟨len_law, bcast_law, fun E => opAdd_law E, fun E => opSub_law E, fun E => opMul_law E, fun E => opDiv_law E, fun E =>
      opAddAssign_law E, fun E => opSubAssign_law E, fun E => opMulAssign_law E, fun E => opDivAssign_law E, fun E => sqrtFn_law
      E, fun E => sqrt_law E, fun E => (divOf (opDiv_law E) (sqrtFn_law E) :), fun E => (divOf (opDivAssign_law E) (sqrtFn_law
      E) :)⟩

theorem mem : MemLaws impl ⟨1, 1, (some 1), 1, true⟩ :=
  ⟨load_law, load_aligned_law, ofPtr_law, ofList_law, store_law, store_aligned_law, fun E => ntOf (store_nt_law E), opStore_law,
      gather_law, scatter_law⟩

theorem printLaw (E : FEnv) : PrintLaw impl.lanes (impl.print E) := print_law E

theorem cmpLaws : CmpLaws cmp FEnv.f32 :=
  ⟨opLt_law, opLe_law, opEq_law, opGt_law, opGe_law, blend_law, fun E => anyBits (any E), any_law, opIndex_law⟩

end LFA.SV.ScalarFloat16

namespace LFA.SV.ScalarFloat32
theorem arith : Arith impl (LaneOps.ieee FEnv.f32) :=
  ⟨len_law, bcast_law, fun E => opAdd_law E, fun E => opSub_law E, fun E => opMul_law E, fun E => opDiv_law E, fun E =>
      opAddAssign_law E, fun E => opSubAssign_law E, fun E => opMulAssign_law E, fun E => opDivAssign_law E, fun E => sqrtFn_law
      E, fun E => sqrt_law E, fun E => (divOf (opDiv_law E) (sqrtFn_law E) :), fun E => (divOf (opDivAssign_law E) (sqrtFn_law
      E) :)⟩

theorem mem : MemLaws impl ⟨1, 1, (some 1), 1, true⟩ :=
  ⟨load_law, load_aligned_law, ofPtr_law, ofList_law, store_law, store_aligned_law, fun E => ntOf (store_nt_law E), opStore_law,
      gather_law, scatter_law⟩

theorem printLaw (E : FEnv) : PrintLaw impl.lanes (impl.print E) := print_law E

theorem cmpLaws : CmpLaws cmp FEnv.f32 :=
  ⟨opLt_law, opLe_law, opEq_law, opGt_law, opGe_law, blend_law, fun E => anyBits (any E), any_law, opIndex_law⟩

end LFA.SV.ScalarFloat32

namespace LFA.SV.ScalarInt1
theorem arith : Arith impl LaneOps.int :=
  ⟨len_law, bcast_law, fun E => opAdd_law E, fun E => opSub_law E, fun E => opMul_law E, fun E => opDiv_law E, fun E =>
      opAddAssign_law E, fun E => opSubAssign_law E, fun E => opMulAssign_law E, fun E => opDivAssign_law E, fun E => sqrtFn_law
      E, fun E => sqrt_law E, fun E => (divOf (opDiv_law E) (sqrtFn_law E) :), fun E => (divOf (opDivAssign_law E) (sqrtFn_law
      E) :)⟩

theorem mem : MemLaws impl ⟨1, 1, (some 1), 1, true⟩ :=
  ⟨load_law, load_aligned_law, ofPtr_law, ofList_law, store_law, store_aligned_law, fun E => ntOf (store_nt_law E), opStore_law,
      gather_law, scatter_law⟩

theorem printLaw (E : FEnv) : PrintLaw impl.lanes (impl.print E) := print_law E

end LFA.SV.ScalarInt1

namespace LFA.SV.ScalarInt2
theorem arith : Arith impl LaneOps.int :=
  ⟨len_law, bcast_law, fun E => opAdd_law E, fun E => opSub_law E, fun E => opMul_law E, fun E => opDiv_law E, fun E =>
      opAddAssign_law E, fun E => opSubAssign_law E, fun E => opMulAssign_law E, fun E => opDivAssign_law E, fun E => sqrtFn_law
      E, fun E => sqrt_law E, fun E => (divOf (opDiv_law E) (sqrtFn_law E) :), fun E => (divOf (opDivAssign_law E) (sqrtFn_law
      E) :)⟩

theorem mem : MemLaws impl ⟨1, 1, (some 1), 1, true⟩ :=
  ⟨load_law, load_aligned_law, ofPtr_law, ofList_law, store_law, store_aligned_law, fun E => ntOf (store_nt_law E), opStore_law,
      gather_law, scatter_law⟩

theorem printLaw (E : FEnv) : PrintLaw impl.lanes (impl.print E) := print_law E

end LFA.SV.ScalarInt2

namespace LFA.SV.ScalarInt4
theorem arith : Arith impl LaneOps.int :=
  ⟨len_law, bcast_law, fun E => opAdd_law E, fun E => opSub_law E, fun E => opMul_law E, fun E => opDiv_law E, fun E =>
      opAddAssign_law E, fun E => opSubAssign_law E, fun E => opMulAssign_law E, fun E => opDivAssign_law E, fun E => sqrtFn_law
      E, fun E => sqrt_law E, fun E => (divOf (opDiv_law E) (sqrtFn_law E) :), fun E => (divOf (opDivAssign_law E) (sqrtFn_law
      E) :)⟩

theorem mem : MemLaws impl ⟨1, 1, (some 1), 1, true⟩ :=
  ⟨load_law, load_aligned_law, ofPtr_law, ofList_law, store_law, store_aligned_law, fun E => ntOf (store_nt_law E), opStore_law,
      gather_law, scatter_law⟩

theorem printLaw (E : FEnv) : PrintLaw impl.lanes (impl.print E) := print_law E

end LFA.SV.ScalarInt4

namespace LFA.SV.ScalarInt8
theorem arith : Arith impl LaneOps.int :=
  ⟨len_law, bcast_law, fun E => opAdd_law E, fun E => opSub_law E, fun E => opMul_law E, fun E => opDiv_law E, fun E =>
      opAddAssign_law E, fun E => opSubAssign_law E, fun E => opMulAssign_law E, fun E => opDivAssign_law E, fun E => sqrtFn_law
      E, fun E => sqrt_law E, fun E => (divOf (opDiv_law E) (sqrtFn_law E) :), fun E => (divOf (opDivAssign_law E) (sqrtFn_law
      E) :)⟩

theorem mem : MemLaws impl ⟨1, 1, (some 1), 1, true⟩ :=
  ⟨load_law, load_aligned_law, ofPtr_law, ofList_law, store_law, store_aligned_law, fun E => ntOf (store_nt_law E), opStore_law,
      gather_law, scatter_law⟩

theorem printLaw (E : FEnv) : PrintLaw impl.lanes (impl.print E) := print_law E

end LFA.SV.ScalarInt8

namespace LFA.SV.ScalarInt16
theorem arith : Arith impl LaneOps.int :=
  ⟨len_law, bcast_law, fun E => opAdd_law E, fun E => opSub_law E, fun E => opMul_law E, fun E => opDiv_law E, fun E =>
      opAddAssign_law E, fun E => opSubAssign_law E, fun E => opMulAssign_law E, fun E => opDivAssign_law E, fun E => sqrtFn_law
      E, fun E => sqrt_law E, fun E => (divOf (opDiv_law E) (sqrtFn_law E) :), fun E => (divOf (opDivAssign_law E) (sqrtFn_law
      E) :)⟩

theorem mem : MemLaws impl ⟨1, 1, (some 1), 1, true⟩ :=
  ⟨load_law, load_aligned_law, ofPtr_law, ofList_law, store_law, store_aligned_law, fun E => ntOf (store_nt_law E), opStore_law,
      gather_law, scatter_law⟩

theorem printLaw (E : FEnv) : PrintLaw impl.lanes (impl.print E) := print_law E

end LFA.SV.ScalarInt16

namespace LFA.SV.ScalarInt32
theorem arith : Arith impl LaneOps.int :=
  ⟨len_law, bcast_law, fun E => opAdd_law E, fun E => opSub_law E, fun E => opMul_law E, fun E => opDiv_law E, fun E =>
      opAddAssign_law E, fun E => opSubAssign_law E, fun E => opMulAssign_law E, fun E => opDivAssign_law E, fun E => sqrtFn_law
      E, fun E => sqrt_law E, fun E => (divOf (opDiv_law E) (sqrtFn_law E) :), fun E => (divOf (opDivAssign_law E) (sqrtFn_law
      E) :)⟩

theorem mem : MemLaws impl ⟨1, 1, (some 1), 1, true⟩ :=
  ⟨load_law, load_aligned_law, ofPtr_law, ofList_law, store_law, store_aligned_law, fun E => ntOf (store_nt_law E), opStore_law,
      gather_law, scatter_law⟩

theorem printLaw (E : FEnv) : PrintLaw impl.lanes (impl.print E) := print_law E

end LFA.SV.ScalarInt32

namespace LFA.SV.SseDouble2
theorem arith_avx512f : Arith impl_avx512f (LaneOps.ieee FEnv.f64) :=
  ⟨len_law, bcast_law, fun E => opAdd_law E, fun E => opSub_law E, fun E => opMul_law E, fun E => opDiv_law E, fun E =>
      opAddAssign_law E, fun E => opSubAssign_law E, fun E => opMulAssign_law E, fun E => opDivAssign_law E, fun E => sqrtFn_law
      E, fun E => sqrt_law E, fun E => (divOf (opDiv_law E) (sqrtFn_law E) :), fun E => (divOf (opDivAssign_law E) (sqrtFn_law
      E) :)⟩

theorem mem_avx512f : MemLaws impl_avx512f ⟨1, 16, (some 16), 1, true⟩ :=
  ⟨load_law, load_aligned_law, ofPtr_law, ofList_law, store_law, store_aligned_law, fun E => ntOf (store_nt_law E), opStore_law,
      gather_law, scatter_law⟩

theorem printLaw_avx512f (E : FEnv) : PrintLaw impl_avx512f.lanes (impl_avx512f.print E) := print_law E

theorem cmpLaws_avx512f : CmpLaws cmp_avx512f FEnv.f64 :=
  ⟨opLt_law, opLe_law, opEq_law, opGt_law, opGe_law, blend_avx512f_law, any_avx512f_law, any_avx512f_law, opIndex_law⟩

end LFA.SV.SseDouble2

namespace LFA.SV.SseDouble2
theorem arith_sse : Arith impl_sse (LaneOps.ieee FEnv.f64) :=
  ⟨len_law, bcast_law, fun E => opAdd_law E, fun E => opSub_law E, fun E => opMul_law E, fun E => opDiv_law E, fun E =>
      opAddAssign_law E, fun E => opSubAssign_law E, fun E => opMulAssign_law E, fun E => opDivAssign_law E, fun E => sqrtFn_law
      E, fun E => sqrt_law E, fun E => (divOf (opDiv_law E) (sqrtFn_law E) :), fun E => (divOf (opDivAssign_law E) (sqrtFn_law
      E) :)⟩

theorem mem_sse : MemLaws impl_sse ⟨1, 16, (some 16), 1, true⟩ :=
  ⟨load_law, load_aligned_law, ofPtr_law, ofList_law, store_law, store_aligned_law, fun E => ntOf (store_nt_law E), opStore_law,
      gather_law, scatter_law⟩

theorem printLaw_sse (E : FEnv) : PrintLaw impl_sse.lanes (impl_sse.print E) := print_law E

theorem cmpLaws_sse : CmpLaws cmp_sse FEnv.f64 :=
  ⟨opLt_law, opLe_law, opEq_law, opGt_law, opGe_law, blend_sse_law, any_sse_law, any_sse_law, opIndex_law⟩

end LFA.SV.SseDouble2

namespace LFA.SV.SseDouble4
theorem arith_sse : Arith impl_sse (LaneOps.ieee FEnv.f64) :=
  ⟨len_law, bcast_law, fun E => opAdd_law E, fun E => opSub_law E, fun E => opMul_law E, fun E => opDiv_law E, fun E =>
      opAddAssign_law E, fun E => opSubAssign_law E, fun E => opMulAssign_law E, fun E => opDivAssign_law E, fun E => sqrtFn_law
      E, fun E => sqrt_law E, fun E => (divOf (opDiv_law E) (sqrtFn_law E) :), fun E => (divOf (opDivAssign_law E) (sqrtFn_law
      E) :)⟩

theorem mem_sse : MemLaws impl_sse ⟨1, 16, (some 16), 1, true⟩ :=
  ⟨load_law, load_aligned_law, ofPtr_law, ofList_law, store_law, store_aligned_law, fun E => ntOf (store_nt_law E), opStore_law,
      gather_law, scatter_law⟩

theorem printLaw_sse (E : FEnv) : PrintLaw impl_sse.lanes (impl_sse.print E) := print_law E

theorem cmpLaws_sse : CmpLaws cmp_sse FEnv.f64 :=
  ⟨opLt_law, opLe_law, opEq_law, opGt_law, opGe_law, blend_sse_law, any_sse_law, any_sse_law, opIndex_law⟩

end LFA.SV.SseDouble4

namespace LFA.SV.SseDouble4
theorem arith_sse41 : Arith impl_sse41 (LaneOps.ieee FEnv.f64) :=
  ⟨len_law, bcast_law, fun E => opAdd_law E, fun E => opSub_law E, fun E => opMul_law E, fun E => opDiv_law E, fun E =>
      opAddAssign_law E, fun E => opSubAssign_law E, fun E => opMulAssign_law E, fun E => opDivAssign_law E, fun E => sqrtFn_law
      E, fun E => sqrt_law E, fun E => (divOf (opDiv_law E) (sqrtFn_law E) :), fun E => (divOf (opDivAssign_law E) (sqrtFn_law
      E) :)⟩

theorem mem_sse41 : MemLaws impl_sse41 ⟨1, 16, (some 16), 1, true⟩ :=
  ⟨load_law, load_aligned_law, ofPtr_law, ofList_law, store_law, store_aligned_law, fun E => ntOf (store_nt_law E), opStore_law,
      gather_law, scatter_law⟩

theorem printLaw_sse41 (E : FEnv) : PrintLaw impl_sse41.lanes (impl_sse41.print E) := print_law E

theorem cmpLaws_sse41 : CmpLaws cmp_sse41 FEnv.f64 :=
  ⟨opLt_law, opLe_law, opEq_law, opGt_law, opGe_law, blend_sse41_law, any_sse41_law, any_sse41_law, opIndex_law⟩

end LFA.SV.SseDouble4

namespace LFA.SV.SseDouble8
theorem arith_sse : Arith impl_sse (LaneOps.ieee FEnv.f64) :=
  ⟨len_law, bcast_law, fun E => opAdd_law E, fun E => opSub_law E, fun E => opMul_law E, fun E => opDiv_law E, fun E =>
      opAddAssign_law E, fun E => opSubAssign_law E, fun E => opMulAssign_law E, fun E => opDivAssign_law E, fun E => sqrtFn_law
      E, fun E => sqrt_law E, fun E => (divOf (opDiv_law E) (sqrtFn_law E) :), fun E => (divOf (opDivAssign_law E) (sqrtFn_law
      E) :)⟩

theorem mem_sse : MemLaws impl_sse ⟨1, 16, (some 16), 1, true⟩ :=
  ⟨load_law, load_aligned_law, ofPtr_law, ofList_law, store_law, store_aligned_law, fun E => ntOf (store_nt_law E), opStore_law,
      gather_law, scatter_law⟩

theorem printLaw_sse (E : FEnv) : PrintLaw impl_sse.lanes (impl_sse.print E) := print_law E

theorem cmpLaws_sse : CmpLaws cmp_sse FEnv.f64 :=
  ⟨opLt_law, opLe_law, opEq_law, opGt_law, opGe_law, blend_sse_law, any_sse_law, any_sse_law, opIndex_law⟩

end LFA.SV.SseDouble8

namespace LFA.SV.SseDouble8
theorem arith_sse41 : Arith impl_sse41 (LaneOps.ieee FEnv.f64) :=
  ⟨len_law, bcast_law, fun E => opAdd_law E, fun E => opSub_law E, fun E => opMul_law E, fun E => opDiv_law E, fun E =>
      opAddAssign_law E, fun E => opSubAssign_law E, fun E => opMulAssign_law E, fun E => opDivAssign_law E, fun E => sqrtFn_law
      E, fun E => sqrt_law E, fun E => (divOf (opDiv_law E) (sqrtFn_law E) :), fun E => (divOf (opDivAssign_law E) (sqrtFn_law
      E) :)⟩

theorem mem_sse41 : MemLaws impl_sse41 ⟨1, 16, (some 16), 1, true⟩ :=
  ⟨load_law, load_aligned_law, ofPtr_law, ofList_law, store_law, store_aligned_law, fun E => ntOf (store_nt_law E), opStore_law,
      gather_law, scatter_law⟩

theorem printLaw_sse41 (E : FEnv) : PrintLaw impl_sse41.lanes (impl_sse41.print E) := print_law E

theorem cmpLaws_sse41 : CmpLaws cmp_sse41 FEnv.f64 :=
  ⟨opLt_law, opLe_law, opEq_law, opGt_law, opGe_law, blend_sse41_law, any_sse41_law, any_sse41_law, opIndex_law⟩

end LFA.SV.SseDouble8

namespace LFA.SV.SseDouble16
theorem arith_sse : Arith impl_sse (LaneOps.ieee FEnv.f64) :=
  ⟨len_law, bcast_law, fun E => opAdd_law E, fun E => opSub_law E, fun E => opMul_law E, fun E => opDiv_law E, fun E =>
      opAddAssign_law E, fun E => opSubAssign_law E, fun E => opMulAssign_law E, fun E => opDivAssign_law E, fun E => sqrtFn_law
      E, fun E => sqrt_law E, fun E => (divOf (opDiv_law E) (sqrtFn_law E) :), fun E => (divOf (opDivAssign_law E) (sqrtFn_law
      E) :)⟩

theorem mem_sse : MemLaws impl_sse ⟨1, 16, (some 16), 1, true⟩ :=
  ⟨load_law, load_aligned_law, ofPtr_law, ofList_law, store_law, store_aligned_law, fun E => ntOf (store_nt_law E), opStore_law,
      gather_law, scatter_law⟩

theorem printLaw_sse (E : FEnv) : PrintLaw impl_sse.lanes (impl_sse.print E) := print_law E

theorem cmpLaws_sse : CmpLaws cmp_sse FEnv.f64 :=
  ⟨opLt_law, opLe_law, opEq_law, opGt_law, opGe_law, blend_sse_law, any_sse_law, any_sse_law, opIndex_law⟩

end LFA.SV.SseDouble16

namespace LFA.SV.SseDouble16
theorem arith_sse41 : Arith impl_sse41 (LaneOps.ieee FEnv.f64) :=
  ⟨len_law, bcast_law, fun E => opAdd_law E, fun E => opSub_law E, fun E => opMul_law E, fun E => opDiv_law E, fun E =>
      opAddAssign_law E, fun E => opSubAssign_law E, fun E => opMulAssign_law E, fun E => opDivAssign_law E, fun E => sqrtFn_law
      E, fun E => sqrt_law E, fun E => (divOf (opDiv_law E) (sqrtFn_law E) :), fun E => (divOf (opDivAssign_law E) (sqrtFn_law
      E) :)⟩

theorem mem_sse41 : MemLaws impl_sse41 ⟨1, 16, (some 16), 1, true⟩ :=
  ⟨load_law, load_aligned_law, ofPtr_law, ofList_law, store_law, store_aligned_law, fun E => ntOf (store_nt_law E), opStore_law,
      gather_law, scatter_law⟩

theorem printLaw_sse41 (E : FEnv) : PrintLaw impl_sse41.lanes (impl_sse41.print E) := print_law E

theorem cmpLaws_sse41 : CmpLaws cmp_sse41 FEnv.f64 :=
  ⟨opLt_law, opLe_law, opEq_law, opGt_law, opGe_law, blend_sse41_law, any_sse41_law, any_sse41_law, opIndex_law⟩

end LFA.SV.SseDouble16

namespace LFA.SV.SseDouble32
theorem arith_sse : Arith impl_sse (LaneOps.ieee FEnv.f64) :=
  ⟨len_law, bcast_law, fun E => opAdd_law E, fun E => opSub_law E, fun E => opMul_law E, fun E => opDiv_law E, fun E =>
      opAddAssign_law E, fun E => opSubAssign_law E, fun E => opMulAssign_law E, fun E => opDivAssign_law E, fun E => sqrtFn_law
      E, fun E => sqrt_law E, fun E => (divOf (opDiv_law E) (sqrtFn_law E) :), fun E => (divOf (opDivAssign_law E) (sqrtFn_law
      E) :)⟩

theorem mem_sse : MemLaws impl_sse ⟨1, 16, (some 16), 1, true⟩ :=
  ⟨load_law, load_aligned_law, ofPtr_law, ofList_law, store_law, store_aligned_law, fun E => ntOf (store_nt_law E), opStore_law,
      gather_law, scatter_law⟩

theorem printLaw_sse (E : FEnv) : PrintLaw impl_sse.lanes (impl_sse.print E) := print_law E

theorem cmpLaws_sse : CmpLaws cmp_sse FEnv.f64 :=
  ⟨opLt_law, opLe_law, opEq_law, opGt_law, opGe_law, blend_sse_law, any_sse_law, any_sse_law, opIndex_law⟩

end LFA.SV.SseDouble32

namespace LFA.SV.SseDouble32
theorem arith_sse41 : Arith impl_sse41 (LaneOps.ieee FEnv.f64) :=
  ⟨len_law, bcast_law, fun E => opAdd_law E, fun E => opSub_law E, fun E => opMul_law E, fun E => opDiv_law E, fun E =>
      opAddAssign_law E, fun E => opSubAssign_law E, fun E => opMulAssign_law E, fun E => opDivAssign_law E, fun E => sqrtFn_law
      E, fun E => sqrt_law E, fun E => (divOf (opDiv_law E) (sqrtFn_law E) :), fun E => (divOf (opDivAssign_law E) (sqrtFn_law
      E) :)⟩

theorem mem_sse41 : MemLaws impl_sse41 ⟨1, 16, (some 16), 1, true⟩ :=
  ⟨load_law, load_aligned_law, ofPtr_law, ofList_law, store_law, store_aligned_law, fun E => ntOf (store_nt_law E), opStore_law,
      gather_law, scatter_law⟩

theorem printLaw_sse41 (E : FEnv) : PrintLaw impl_sse41.lanes (impl_sse41.print E) := print_law E

theorem cmpLaws_sse41 : CmpLaws cmp_sse41 FEnv.f64 :=
  ⟨opLt_law, opLe_law, opEq_law, opGt_law, opGe_law, blend_sse41_law, any_sse41_law, any_sse41_law, opIndex_law⟩

end LFA.SV.SseDouble32

namespace LFA.SV.SseFloat4
theorem arith_avx512f : Arith impl_avx512f LaneOps.sse32 :=
  ⟨len_law, bcast_law, fun E => opAdd_law E, fun E => opSub_law E, fun E => opMul_law E, fun E => opDiv_law E, fun E =>
      opAddAssign_law E, fun E => opSubAssign_law E, fun E => opMulAssign_law E, fun E => opDivAssign_law E, fun E => ofSqrt_law
      E, fun E => sqrt_law E, fun E => opDivSqrt_law E, fun E => opDivAssignSqrt_law E⟩

theorem mem_avx512f : MemLaws impl_avx512f ⟨1, 16, (some 16), 1, false⟩ :=
  ⟨load_law, load_aligned_law, ofPtr_law, ofList_law, store_law, store_aligned_law, fun E => ntOf (store_nt_law E), opStore_law,
      gather_avx512f_law, scatter_avx512f_law⟩

theorem printLaw_avx512f (E : FEnv) : PrintLaw impl_avx512f.lanes (impl_avx512f.print E) := print_law E

theorem cmpLaws_avx512f : CmpLaws cmp_avx512f FEnv.f32 :=
  ⟨opLt_law, opLe_law, opEq_law, opGt_law, opGe_law, blend_avx512f_law, any_avx512f_law, any_avx512f_law, opIndex_law⟩

end LFA.SV.SseFloat4

namespace LFA.SV.SseFloat4
theorem arith_sse : Arith impl_sse LaneOps.sse32 :=
  ⟨len_law, bcast_law, fun E => opAdd_law E, fun E => opSub_law E, fun E => opMul_law E, fun E => opDiv_law E, fun E =>
      opAddAssign_law E, fun E => opSubAssign_law E, fun E => opMulAssign_law E, fun E => opDivAssign_law E, fun E => ofSqrt_law
      E, fun E => sqrt_law E, fun E => opDivSqrt_law E, fun E => opDivAssignSqrt_law E⟩

theorem mem_sse : MemLaws impl_sse ⟨1, 16, (some 16), 1, true⟩ :=
  ⟨load_law, load_aligned_law, ofPtr_law, ofList_law, store_law, store_aligned_law, fun E => ntOf (store_nt_law E), opStore_law,
      gather_sse_law, scatter_sse_law⟩

theorem printLaw_sse (E : FEnv) : PrintLaw impl_sse.lanes (impl_sse.print E) := print_law E

theorem cmpLaws_sse : CmpLaws cmp_sse FEnv.f32 :=
  ⟨opLt_law, opLe_law, opEq_law, opGt_law, opGe_law, blend_sse_law, any_sse_law, any_sse_law, opIndex_law⟩

end LFA.SV.SseFloat4

namespace LFA.SV.SseFloat8
theorem arith_sse : Arith impl_sse LaneOps.sse32 :=
  ⟨len_law, bcast_law, fun E => opAdd_law E, fun E => opSub_law E, fun E => opMul_law E, fun E => opDiv_law E, fun E =>
      opAddAssign_law E, fun E => opSubAssign_law E, fun E => opMulAssign_law E, fun E => opDivAssign_law E, fun E => ofSqrt_law
      E, fun E => sqrt_law E, fun E => opDivSqrt_law E, fun E => opDivAssignSqrt_law E⟩

theorem mem_sse : MemLaws impl_sse ⟨1, 16, (some 16), 1, true⟩ :=
  ⟨load_law, load_aligned_law, ofPtr_law, ofList_law, store_law, store_aligned_law, fun E => ntOf (store_nt_law E), opStore_law,
      gather_sse_law, scatter_sse_law⟩

theorem printLaw_sse (E : FEnv) : PrintLaw impl_sse.lanes (impl_sse.print E) := print_law E

theorem cmpLaws_sse : CmpLaws cmp_sse FEnv.f32 :=
  ⟨opLt_law, opLe_law, opEq_law, opGt_law, opGe_law, blend_sse_law, any_sse_law, any_sse_law, opIndex_law⟩

end LFA.SV.SseFloat8

namespace LFA.SV.SseFloat8
theorem arith_sse41 : Arith impl_sse41 LaneOps.sse32 :=
  ⟨len_law, bcast_law, fun E => opAdd_law E, fun E => opSub_law E, fun E => opMul_law E, fun E => opDiv_law E, fun E =>
      opAddAssign_law E, fun E => opSubAssign_law E, fun E => opMulAssign_law E, fun E => opDivAssign_law E, fun E => ofSqrt_law
      E, fun E => sqrt_law E, fun E => opDivSqrt_law E, fun E => opDivAssignSqrt_law E⟩

theorem mem_sse41 : MemLaws impl_sse41 ⟨1, 16, (some 16), 1, false⟩ :=
  ⟨load_law, load_aligned_law, ofPtr_law, ofList_law, store_law, store_aligned_law, fun E => ntOf (store_nt_law E), opStore_law,
      gather_sse41_law, scatter_sse41_law⟩

theorem printLaw_sse41 (E : FEnv) : PrintLaw impl_sse41.lanes (impl_sse41.print E) := print_law E

theorem cmpLaws_sse41 : CmpLaws cmp_sse41 FEnv.f32 :=
  ⟨opLt_law, opLe_law, opEq_law, opGt_law, opGe_law, blend_sse41_law, any_sse41_law, any_sse41_law, opIndex_law⟩

end LFA.SV.SseFloat8

namespace LFA.SV.SseFloat16
theorem arith_sse : Arith impl_sse LaneOps.sse32 :=
  ⟨len_law, bcast_law, fun E => opAdd_law E, fun E => opSub_law E, fun E => opMul_law E, fun E => opDiv_law E, fun E =>
      opAddAssign_law E, fun E => opSubAssign_law E, fun E => opMulAssign_law E, fun E => opDivAssign_law E, fun E => ofSqrt_law
      E, fun E => sqrt_law E, fun E => opDivSqrt_law E, fun E => opDivAssignSqrt_law E⟩

theorem mem_sse : MemLaws impl_sse ⟨1, 16, (some 16), 1, true⟩ :=
  ⟨load_law, load_aligned_law, ofPtr_law, ofList_law, store_law, store_aligned_law, fun E => ntOf (store_nt_law E), opStore_law,
      gather_sse_law, scatter_sse_law⟩

theorem printLaw_sse (E : FEnv) : PrintLaw impl_sse.lanes (impl_sse.print E) := print_law E

theorem cmpLaws_sse : CmpLaws cmp_sse FEnv.f32 :=
  ⟨opLt_law, opLe_law, opEq_law, opGt_law, opGe_law, blend_sse_law, any_sse_law, any_sse_law, opIndex_law⟩

end LFA.SV.SseFloat16

namespace LFA.SV.SseFloat16
theorem arith_sse41 : Arith impl_sse41 LaneOps.sse32 :=
  ⟨len_law, bcast_law, fun E => opAdd_law E, fun E => opSub_law E, fun E => opMul_law E, fun E => opDiv_law E, fun E =>
      opAddAssign_law E, fun E => opSubAssign_law E, fun E => opMulAssign_law E, fun E => opDivAssign_law E, fun E => ofSqrt_law
      E, fun E => sqrt_law E, fun E => opDivSqrt_law E, fun E => opDivAssignSqrt_law E⟩

theorem mem_sse41 : MemLaws impl_sse41 ⟨1, 16, (some 16), 1, false⟩ :=
  ⟨load_law, load_aligned_law, ofPtr_law, ofList_law, store_law, store_aligned_law, fun E => ntOf (store_nt_law E), opStore_law,
      gather_sse41_law, scatter_sse41_law⟩

theorem printLaw_sse41 (E : FEnv) : PrintLaw impl_sse41.lanes (impl_sse41.print E) := print_law E

theorem cmpLaws_sse41 : CmpLaws cmp_sse41 FEnv.f32 :=
  ⟨opLt_law, opLe_law, opEq_law, opGt_law, opGe_law, blend_sse41_law, any_sse41_law, any_sse41_law, opIndex_law⟩

end LFA.SV.SseFloat16

namespace LFA.SV.SseFloat32
theorem arith_sse : Arith impl_sse LaneOps.sse32 :=
  ⟨len_law, bcast_law, fun E => opAdd_law E, fun E => opSub_law E, fun E => opMul_law E, fun E => opDiv_law E, fun E =>
      opAddAssign_law E, fun E => opSubAssign_law E, fun E => opMulAssign_law E, fun E => opDivAssign_law E, fun E => ofSqrt_law
      E, fun E => sqrt_law E, fun E => opDivSqrt_law E, fun E => opDivAssignSqrt_law E⟩

theorem mem_sse : MemLaws impl_sse ⟨1, 16, (some 16), 1, true⟩ :=
  ⟨load_law, load_aligned_law, ofPtr_law, ofList_law, store_law, store_aligned_law, fun E => ntOf (store_nt_law E), opStore_law,
      gather_sse_law, scatter_sse_law⟩

theorem printLaw_sse (E : FEnv) : PrintLaw impl_sse.lanes (impl_sse.print E) := print_law E

theorem cmpLaws_sse : CmpLaws cmp_sse FEnv.f32 :=
  ⟨opLt_law, opLe_law, opEq_law, opGt_law, opGe_law, blend_sse_law, any_sse_law, any_sse_law, opIndex_law⟩

end LFA.SV.SseFloat32

namespace LFA.SV.SseFloat32
theorem arith_sse41 : Arith impl_sse41 LaneOps.sse32 :=
  ⟨len_law, bcast_law, fun E => opAdd_law E, fun E => opSub_law E, fun E => opMul_law E, fun E => opDiv_law E, fun E =>
      opAddAssign_law E, fun E => opSubAssign_law E, fun E => opMulAssign_law E, fun E => opDivAssign_law E, fun E => ofSqrt_law
      E, fun E => sqrt_law E, fun E => opDivSqrt_law E, fun E => opDivAssignSqrt_law E⟩

theorem mem_sse41 : MemLaws impl_sse41 ⟨1, 16, (some 16), 1, false⟩ :=
  ⟨load_law, load_aligned_law, ofPtr_law, ofList_law, store_law, store_aligned_law, fun E => ntOf (store_nt_law E), opStore_law,
      gather_sse41_law, scatter_sse41_law⟩

theorem printLaw_sse41 (E : FEnv) : PrintLaw impl_sse41.lanes (impl_sse41.print E) := print_law E

theorem cmpLaws_sse41 : CmpLaws cmp_sse41 FEnv.f32 :=
  ⟨opLt_law, opLe_law, opEq_law, opGt_law, opGe_law, blend_sse41_law, any_sse41_law, any_sse41_law, opIndex_law⟩

end LFA.SV.SseFloat32

namespace LFA.SV.SseInt4
theorem arith_avx512f : Arith impl_avx512f (LaneOps.intSimd FOps.rsqrt FOps.toIntR) :=
  ⟨len_law, bcast_law, fun E => opAdd_law E, fun E => opSub_law E, fun E => opMul_avx512f_law E, fun E => opDiv_law E, fun E =>
      opAddAssign_law E, fun E => opSubAssign_law E, fun E => opMulAssign_avx512f_law E, fun E => opDivAssign_law E, fun E =>
      ofSqrt_law E, fun E => sqrt_law E, fun E => opDivSqrt_law E, fun E => opDivAssignSqrt_law E⟩

theorem mem_avx512f : MemLaws impl_avx512f ⟨1, 16, (some 16), 1, true⟩ :=
  ⟨load_law, load_aligned_law, ofPtr_law, ofList_law, store_law, store_aligned_law, fun E => ntOf (store_nt_law E), opStore_law,
      gather_avx512f_law, scatter_avx512f_law⟩

theorem printLaw_avx512f (E : FEnv) : PrintLaw impl_avx512f.lanes (impl_avx512f.print E) := print_law E

end LFA.SV.SseInt4

namespace LFA.SV.SseInt4
theorem arith_sse : Arith impl_sse (LaneOps.intSimd FOps.rsqrt FOps.toIntR) :=
  ⟨len_law, bcast_law, fun E => opAdd_law E, fun E => opSub_law E, fun E => opMul_sse_law E, fun E => opDiv_law E, fun E =>
      opAddAssign_law E, fun E => opSubAssign_law E, fun E => opMulAssign_sse_law E, fun E => opDivAssign_law E, fun E =>
      ofSqrt_law E, fun E => sqrt_law E, fun E => opDivSqrt_law E, fun E => opDivAssignSqrt_law E⟩

theorem mem_sse : MemLaws impl_sse ⟨1, 16, (some 16), 1, true⟩ :=
  ⟨load_law, load_aligned_law, ofPtr_law, ofList_law, store_law, store_aligned_law, fun E => ntOf (store_nt_law E), opStore_law,
      gather_sse_law, scatter_sse_law⟩

theorem printLaw_sse (E : FEnv) : PrintLaw impl_sse.lanes (impl_sse.print E) := print_law E

end LFA.SV.SseInt4

namespace LFA.SV.SseInt8
theorem arith_avx : Arith impl_avx (LaneOps.intSimd FOps.rsqrt FOps.toIntT) :=
  ⟨len_law, bcast_law, fun E => opAdd_law E, fun E => opSub_law E, fun E => opMul_avx_law E, fun E => opDiv_law E, fun E =>
      opAddAssign_law E, fun E => opSubAssign_law E, fun E => opMulAssign_avx_law E, fun E => opDivAssign_law E, fun E =>
      ofSqrt_law E, fun E => sqrt_law E, fun E => opDivSqrt_law E, fun E => opDivAssignSqrt_law E⟩

theorem mem_avx : MemLaws impl_avx ⟨1, 16, (some 16), 1, true⟩ :=
  ⟨load_law, load_aligned_law, ofPtr_law, ofList_law, store_law, store_aligned_law, fun E => ntOf (store_nt_law E), opStore_law,
      gather_avx_law, scatter_avx_law⟩

theorem printLaw_avx (E : FEnv) : PrintLaw impl_avx.lanes (impl_avx.print E) := print_law E

end LFA.SV.SseInt8

namespace LFA.SV.SseInt8
theorem arith_sse : Arith impl_sse (LaneOps.intSimd FOps.rsqrt FOps.toIntT) :=
  ⟨len_law, bcast_law, fun E => opAdd_law E, fun E => opSub_law E, fun E => opMul_sse_law E, fun E => opDiv_law E, fun E =>
      opAddAssign_law E, fun E => opSubAssign_law E, fun E => opMulAssign_sse_law E, fun E => opDivAssign_law E, fun E =>
      ofSqrt_law E, fun E => sqrt_law E, fun E => opDivSqrt_law E, fun E => opDivAssignSqrt_law E⟩

theorem mem_sse : MemLaws impl_sse ⟨1, 16, (some 16), 1, true⟩ :=
  ⟨load_law, load_aligned_law, ofPtr_law, ofList_law, store_law, store_aligned_law, fun E => ntOf (store_nt_law E), opStore_law,
      gather_sse_law, scatter_sse_law⟩

theorem printLaw_sse (E : FEnv) : PrintLaw impl_sse.lanes (impl_sse.print E) := print_law E

end LFA.SV.SseInt8

namespace LFA.SV.SseInt16
theorem arith_avx : Arith impl_avx (LaneOps.intSimd FOps.rsqrt FOps.toIntR) :=
  ⟨len_law, bcast_law, fun E => opAdd_law E, fun E => opSub_law E, fun E => opMul_avx_law E, fun E => opDiv_law E, fun E =>
      opAddAssign_law E, fun E => opSubAssign_law E, fun E => opMulAssign_avx_law E, fun E => opDivAssign_law E, fun E =>
      ofSqrt_law E, fun E => sqrt_law E, fun E => opDivSqrt_law E, fun E => opDivAssignSqrt_law E⟩

theorem mem_avx : MemLaws impl_avx ⟨1, 16, (some 16), 1, true⟩ :=
  ⟨load_law, load_aligned_law, ofPtr_law, ofList_law, store_law, store_aligned_law, fun E => ntOf (store_nt_law E), opStore_law,
      gather_avx_law, scatter_avx_law⟩

theorem printLaw_avx (E : FEnv) : PrintLaw impl_avx.lanes (impl_avx.print E) := print_law E

end LFA.SV.SseInt16

namespace LFA.SV.SseInt16
theorem arith_sse : Arith impl_sse (LaneOps.intSimd FOps.rsqrt FOps.toIntR) :=
  ⟨len_law, bcast_law, fun E => opAdd_law E, fun E => opSub_law E, fun E => opMul_sse_law E, fun E => opDiv_law E, fun E =>
      opAddAssign_law E, fun E => opSubAssign_law E, fun E => opMulAssign_sse_law E, fun E => opDivAssign_law E, fun E =>
      ofSqrt_law E, fun E => sqrt_law E, fun E => opDivSqrt_law E, fun E => opDivAssignSqrt_law E⟩

theorem mem_sse : MemLaws impl_sse ⟨1, 16, (some 16), 1, true⟩ :=
  ⟨load_law, load_aligned_law, ofPtr_law, ofList_law, store_law, store_aligned_law, fun E => ntOf (store_nt_law E), opStore_law,
      gather_sse_law, scatter_sse_law⟩

theorem printLaw_sse (E : FEnv) : PrintLaw impl_sse.lanes (impl_sse.print E) := print_law E

end LFA.SV.SseInt16

namespace LFA.SV.SseInt32
theorem arith_avx : Arith impl_avx (LaneOps.intSimd FOps.rsqrt FOps.toIntR) :=
  ⟨len_law, bcast_law, fun E => opAdd_law E, fun E => opSub_law E, fun E => opMul_avx_law E, fun E => opDiv_law E, fun E =>
      opAddAssign_law E, fun E => opSubAssign_law E, fun E => opMulAssign_avx_law E, fun E => opDivAssign_law E, fun E =>
      ofSqrt_law E, fun E => sqrt_law E, fun E => opDivSqrt_law E, fun E => opDivAssignSqrt_law E⟩

theorem mem_avx : MemLaws impl_avx ⟨1, 16, (some 16), 1, true⟩ :=
  ⟨load_law, load_aligned_law, ofPtr_law, ofList_law, store_law, store_aligned_law, fun E => ntOf (store_nt_law E), opStore_law,
      gather_avx_law, scatter_avx_law⟩

theorem printLaw_avx (E : FEnv) : PrintLaw impl_avx.lanes (impl_avx.print E) := print_law E

end LFA.SV.SseInt32

namespace LFA.SV.SseInt32
theorem arith_sse : Arith impl_sse (LaneOps.intSimd FOps.rsqrt FOps.toIntR) :=
  ⟨len_law, bcast_law, fun E => opAdd_law E, fun E => opSub_law E, fun E => opMul_sse_law E, fun E => opDiv_law E, fun E =>
      opAddAssign_law E, fun E => opSubAssign_law E, fun E => opMulAssign_sse_law E, fun E => opDivAssign_law E, fun E =>
      ofSqrt_law E, fun E => sqrt_law E, fun E => opDivSqrt_law E, fun E => opDivAssignSqrt_law E⟩

theorem mem_sse : MemLaws impl_sse ⟨1, 16, (some 16), 1, true⟩ :=
  ⟨load_law, load_aligned_law, ofPtr_law, ofList_law, store_law, store_aligned_law, fun E => ntOf (store_nt_law E), opStore_law,
      gather_sse_law, scatter_sse_law⟩

theorem printLaw_sse (E : FEnv) : PrintLaw impl_sse.lanes (impl_sse.print E) := print_law E

end LFA.SV.SseInt32

namespace LFA.SV

theorem float_arith : ∀ c, ∀ e ∈ floatVecs c, Arith e.impl (floatOps c e.impl.N)
  | .scalar => List.forall_mem_cons.2 ⟨ScalarFloat1.arith, List.forall_mem_cons.2 ⟨ScalarFloat2.arith, List.forall_mem_cons.2
      ⟨ScalarFloat4.arith, List.forall_mem_cons.2 ⟨ScalarFloat8.arith, List.forall_mem_cons.2 ⟨ScalarFloat16.arith,
      List.forall_mem_cons.2 ⟨ScalarFloat32.arith, List.forall_mem_nil _⟩⟩⟩⟩⟩⟩
  | .qpx => List.forall_mem_cons.2 ⟨ScalarFloat1.arith, List.forall_mem_cons.2 ⟨ScalarFloat2.arith, List.forall_mem_cons.2
      ⟨ScalarFloat4.arith, List.forall_mem_cons.2 ⟨ScalarFloat8.arith, List.forall_mem_cons.2 ⟨ScalarFloat16.arith,
      List.forall_mem_nil _⟩⟩⟩⟩⟩
  | .neon => List.forall_mem_cons.2 ⟨ScalarFloat1.arith, List.forall_mem_cons.2 ⟨ScalarFloat2.arith, List.forall_mem_cons.2
      ⟨NeonFloat4.arith_neon, List.forall_mem_cons.2 ⟨NeonFloat8.arith_neon, List.forall_mem_cons.2 ⟨NeonFloat16.arith_neon,
      List.forall_mem_cons.2 ⟨NeonFloat32.arith_neon, List.forall_mem_nil _⟩⟩⟩⟩⟩⟩
  | .neon_lp64 => List.forall_mem_cons.2 ⟨ScalarFloat1.arith, List.forall_mem_cons.2 ⟨ScalarFloat2.arith, List.forall_mem_cons.2
      ⟨NeonFloat4.arith_neon_lp64, List.forall_mem_cons.2 ⟨NeonFloat8.arith_neon_lp64, List.forall_mem_cons.2
      ⟨NeonFloat16.arith_neon_lp64, List.forall_mem_cons.2 ⟨NeonFloat32.arith_neon_lp64, List.forall_mem_nil _⟩⟩⟩⟩⟩⟩
  | .neon_prec => List.forall_mem_cons.2 ⟨ScalarFloat1.arith, List.forall_mem_cons.2 ⟨ScalarFloat2.arith, List.forall_mem_cons.2
      ⟨NeonFloat4.arith_neon_prec, List.forall_mem_cons.2 ⟨NeonFloat8.arith_neon_prec, List.forall_mem_cons.2
      ⟨NeonFloat16.arith_neon_prec, List.forall_mem_cons.2 ⟨NeonFloat32.arith_neon_prec, List.forall_mem_nil _⟩⟩⟩⟩⟩⟩
  | .neon_prec_lp64 => List.forall_mem_cons.2 ⟨ScalarFloat1.arith, List.forall_mem_cons.2 ⟨ScalarFloat2.arith,
      List.forall_mem_cons.2 ⟨NeonFloat4.arith_neon_prec_lp64, List.forall_mem_cons.2 ⟨NeonFloat8.arith_neon_prec_lp64,
      List.forall_mem_cons.2 ⟨NeonFloat16.arith_neon_prec_lp64, List.forall_mem_cons.2 ⟨NeonFloat32.arith_neon_prec_lp64,
      List.forall_mem_nil _⟩⟩⟩⟩⟩⟩
  | .mic => List.forall_mem_cons.2 ⟨ScalarFloat1.arith, List.forall_mem_cons.2 ⟨ScalarFloat2.arith, List.forall_mem_cons.2
      ⟨ScalarFloat4.arith, List.forall_mem_cons.2 ⟨ScalarFloat8.arith, List.forall_mem_cons.2 ⟨MicFloat16.arith,
      List.forall_mem_cons.2 ⟨MicFloat32.arith, List.forall_mem_nil _⟩⟩⟩⟩⟩⟩
  | .avx512f => List.forall_mem_cons.2 ⟨ScalarFloat1.arith, List.forall_mem_cons.2 ⟨ScalarFloat2.arith, List.forall_mem_cons.2
      ⟨SseFloat4.arith_avx512f, List.forall_mem_cons.2 ⟨AvxFloat8.arith_avx512f, List.forall_mem_cons.2 ⟨Avx512Float16.arith,
      List.forall_mem_cons.2 ⟨Avx512Float32.arith, List.forall_mem_nil _⟩⟩⟩⟩⟩⟩
  | .avx => List.forall_mem_cons.2 ⟨ScalarFloat1.arith, List.forall_mem_cons.2 ⟨ScalarFloat2.arith, List.forall_mem_cons.2
      ⟨SseFloat4.arith_avx512f, List.forall_mem_cons.2 ⟨AvxFloat8.arith_avx, List.forall_mem_cons.2 ⟨AvxFloat16.arith_avx,
      List.forall_mem_cons.2 ⟨AvxFloat32.arith_avx, List.forall_mem_nil _⟩⟩⟩⟩⟩⟩
  | .avx2 => List.forall_mem_cons.2 ⟨ScalarFloat1.arith, List.forall_mem_cons.2 ⟨ScalarFloat2.arith, List.forall_mem_cons.2
      ⟨SseFloat4.arith_avx512f, List.forall_mem_cons.2 ⟨AvxFloat8.arith_avx512f, List.forall_mem_cons.2 ⟨AvxFloat16.arith_avx2,
      List.forall_mem_cons.2 ⟨AvxFloat32.arith_avx2, List.forall_mem_nil _⟩⟩⟩⟩⟩⟩
  | .sse => List.forall_mem_cons.2 ⟨ScalarFloat1.arith, List.forall_mem_cons.2 ⟨ScalarFloat2.arith, List.forall_mem_cons.2
      ⟨SseFloat4.arith_sse, List.forall_mem_cons.2 ⟨SseFloat8.arith_sse, List.forall_mem_cons.2 ⟨SseFloat16.arith_sse,
      List.forall_mem_cons.2 ⟨SseFloat32.arith_sse, List.forall_mem_nil _⟩⟩⟩⟩⟩⟩
  | .sse2 => List.forall_mem_cons.2 ⟨ScalarFloat1.arith, List.forall_mem_cons.2 ⟨ScalarFloat2.arith, List.forall_mem_cons.2
      ⟨SseFloat4.arith_sse, List.forall_mem_cons.2 ⟨SseFloat8.arith_sse, List.forall_mem_cons.2 ⟨SseFloat16.arith_sse,
      List.forall_mem_cons.2 ⟨SseFloat32.arith_sse, List.forall_mem_nil _⟩⟩⟩⟩⟩⟩
  | .sse41 => List.forall_mem_cons.2 ⟨ScalarFloat1.arith, List.forall_mem_cons.2 ⟨ScalarFloat2.arith, List.forall_mem_cons.2
      ⟨SseFloat4.arith_avx512f, List.forall_mem_cons.2 ⟨SseFloat8.arith_sse41, List.forall_mem_cons.2 ⟨SseFloat16.arith_sse41,
      List.forall_mem_cons.2 ⟨SseFloat32.arith_sse41, List.forall_mem_nil _⟩⟩⟩⟩⟩⟩

theorem float_mem : ∀ c, ∀ e ∈ floatVecs c, MemLaws e.impl (floatReqs c e.impl.N)
  | .scalar => List.forall_mem_cons.2 ⟨ScalarFloat1.mem, List.forall_mem_cons.2 ⟨ScalarFloat2.mem, List.forall_mem_cons.2
      ⟨ScalarFloat4.mem, List.forall_mem_cons.2 ⟨ScalarFloat8.mem, List.forall_mem_cons.2 ⟨ScalarFloat16.mem,
      List.forall_mem_cons.2 ⟨ScalarFloat32.mem, List.forall_mem_nil _⟩⟩⟩⟩⟩⟩
  | .qpx => List.forall_mem_cons.2 ⟨ScalarFloat1.mem, List.forall_mem_cons.2 ⟨ScalarFloat2.mem, List.forall_mem_cons.2
      ⟨ScalarFloat4.mem, List.forall_mem_cons.2 ⟨ScalarFloat8.mem, List.forall_mem_cons.2 ⟨ScalarFloat16.mem,
      List.forall_mem_nil _⟩⟩⟩⟩⟩
  | .neon => List.forall_mem_cons.2 ⟨ScalarFloat1.mem, List.forall_mem_cons.2 ⟨ScalarFloat2.mem, List.forall_mem_cons.2
      ⟨NeonFloat4.mem_neon, List.forall_mem_cons.2 ⟨NeonFloat8.mem_neon, List.forall_mem_cons.2 ⟨NeonFloat16.mem_neon,
      List.forall_mem_cons.2 ⟨NeonFloat32.mem_neon, List.forall_mem_nil _⟩⟩⟩⟩⟩⟩
  | .neon_lp64 => List.forall_mem_cons.2 ⟨ScalarFloat1.mem, List.forall_mem_cons.2 ⟨ScalarFloat2.mem, List.forall_mem_cons.2
      ⟨NeonFloat4.mem_neon_lp64, List.forall_mem_cons.2 ⟨NeonFloat8.mem_neon_lp64, List.forall_mem_cons.2
      ⟨NeonFloat16.mem_neon_lp64, List.forall_mem_cons.2 ⟨NeonFloat32.mem_neon_lp64, List.forall_mem_nil _⟩⟩⟩⟩⟩⟩
  | .neon_prec => List.forall_mem_cons.2 ⟨ScalarFloat1.mem, List.forall_mem_cons.2 ⟨ScalarFloat2.mem, List.forall_mem_cons.2
      ⟨NeonFloat4.mem_neon_prec, List.forall_mem_cons.2 ⟨NeonFloat8.mem_neon_prec, List.forall_mem_cons.2
      ⟨NeonFloat16.mem_neon_prec, List.forall_mem_cons.2 ⟨NeonFloat32.mem_neon_prec, List.forall_mem_nil _⟩⟩⟩⟩⟩⟩
  | .neon_prec_lp64 => List.forall_mem_cons.2 ⟨ScalarFloat1.mem, List.forall_mem_cons.2 ⟨ScalarFloat2.mem,
      List.forall_mem_cons.2 ⟨NeonFloat4.mem_neon_prec_lp64, List.forall_mem_cons.2 ⟨NeonFloat8.mem_neon_prec_lp64,
      List.forall_mem_cons.2 ⟨NeonFloat16.mem_neon_prec_lp64, List.forall_mem_cons.2 ⟨NeonFloat32.mem_neon_prec_lp64,
      List.forall_mem_nil _⟩⟩⟩⟩⟩⟩
  | .mic => List.forall_mem_cons.2 ⟨ScalarFloat1.mem, List.forall_mem_cons.2 ⟨ScalarFloat2.mem, List.forall_mem_cons.2
      ⟨ScalarFloat4.mem, List.forall_mem_cons.2 ⟨ScalarFloat8.mem, List.forall_mem_cons.2 ⟨MicFloat16.mem,
      List.forall_mem_cons.2 ⟨MicFloat32.mem, List.forall_mem_nil _⟩⟩⟩⟩⟩⟩
  | .avx512f => List.forall_mem_cons.2 ⟨ScalarFloat1.mem, List.forall_mem_cons.2 ⟨ScalarFloat2.mem, List.forall_mem_cons.2
      ⟨SseFloat4.mem_avx512f, List.forall_mem_cons.2 ⟨AvxFloat8.mem_avx512f, List.forall_mem_cons.2 ⟨Avx512Float16.mem,
      List.forall_mem_cons.2 ⟨Avx512Float32.mem, List.forall_mem_nil _⟩⟩⟩⟩⟩⟩
  | .avx => List.forall_mem_cons.2 ⟨ScalarFloat1.mem, List.forall_mem_cons.2 ⟨ScalarFloat2.mem, List.forall_mem_cons.2
      ⟨SseFloat4.mem_avx512f, List.forall_mem_cons.2 ⟨AvxFloat8.mem_avx, List.forall_mem_cons.2 ⟨AvxFloat16.mem_avx,
      List.forall_mem_cons.2 ⟨AvxFloat32.mem_avx, List.forall_mem_nil _⟩⟩⟩⟩⟩⟩
  | .avx2 => List.forall_mem_cons.2 ⟨ScalarFloat1.mem, List.forall_mem_cons.2 ⟨ScalarFloat2.mem, List.forall_mem_cons.2
      ⟨SseFloat4.mem_avx512f, List.forall_mem_cons.2 ⟨AvxFloat8.mem_avx512f, List.forall_mem_cons.2 ⟨AvxFloat16.mem_avx2,
      List.forall_mem_cons.2 ⟨AvxFloat32.mem_avx2, List.forall_mem_nil _⟩⟩⟩⟩⟩⟩
  | .sse => List.forall_mem_cons.2 ⟨ScalarFloat1.mem, List.forall_mem_cons.2 ⟨ScalarFloat2.mem, List.forall_mem_cons.2
      ⟨SseFloat4.mem_sse, List.forall_mem_cons.2 ⟨SseFloat8.mem_sse, List.forall_mem_cons.2 ⟨SseFloat16.mem_sse,
      List.forall_mem_cons.2 ⟨SseFloat32.mem_sse, List.forall_mem_nil _⟩⟩⟩⟩⟩⟩
  | .sse2 => List.forall_mem_cons.2 ⟨ScalarFloat1.mem, List.forall_mem_cons.2 ⟨ScalarFloat2.mem, List.forall_mem_cons.2
      ⟨SseFloat4.mem_sse, List.forall_mem_cons.2 ⟨SseFloat8.mem_sse, List.forall_mem_cons.2 ⟨SseFloat16.mem_sse,
      List.forall_mem_cons.2 ⟨SseFloat32.mem_sse, List.forall_mem_nil _⟩⟩⟩⟩⟩⟩
  | .sse41 => List.forall_mem_cons.2 ⟨ScalarFloat1.mem, List.forall_mem_cons.2 ⟨ScalarFloat2.mem, List.forall_mem_cons.2
      ⟨SseFloat4.mem_avx512f, List.forall_mem_cons.2 ⟨SseFloat8.mem_sse41, List.forall_mem_cons.2 ⟨SseFloat16.mem_sse41,
      List.forall_mem_cons.2 ⟨SseFloat32.mem_sse41, List.forall_mem_nil _⟩⟩⟩⟩⟩⟩

theorem double_arith : ∀ c, ∀ e ∈ doubleVecs c, Arith e.impl (doubleOps c e.impl.N)
  | .scalar => List.forall_mem_cons.2 ⟨ScalarDouble1.arith, List.forall_mem_cons.2 ⟨ScalarDouble2.arith, List.forall_mem_cons.2
      ⟨ScalarDouble4.arith, List.forall_mem_cons.2 ⟨ScalarDouble8.arith, List.forall_mem_cons.2 ⟨ScalarDouble16.arith,
      List.forall_mem_cons.2 ⟨ScalarDouble32.arith, List.forall_mem_nil _⟩⟩⟩⟩⟩⟩
  | .qpx => List.forall_mem_cons.2 ⟨ScalarDouble1.arith, List.forall_mem_cons.2 ⟨ScalarDouble2.arith, List.forall_mem_cons.2
      ⟨QpxDouble4.arith, List.forall_mem_cons.2 ⟨QpxDouble8.arith, List.forall_mem_cons.2 ⟨QpxDouble16.arith,
      List.forall_mem_cons.2 ⟨QpxDouble32.arith, List.forall_mem_nil _⟩⟩⟩⟩⟩⟩
  | .neon => List.forall_mem_cons.2 ⟨ScalarDouble1.arith, List.forall_mem_cons.2 ⟨ScalarDouble2.arith, List.forall_mem_cons.2
      ⟨ScalarDouble4.arith, List.forall_mem_cons.2 ⟨ScalarDouble8.arith, List.forall_mem_cons.2 ⟨ScalarDouble16.arith,
      List.forall_mem_cons.2 ⟨ScalarDouble32.arith, List.forall_mem_nil _⟩⟩⟩⟩⟩⟩
  | .neon_lp64 => List.forall_mem_cons.2 ⟨ScalarDouble1.arith, List.forall_mem_cons.2 ⟨ScalarDouble2.arith,
      List.forall_mem_cons.2 ⟨ScalarDouble4.arith, List.forall_mem_cons.2 ⟨ScalarDouble8.arith, List.forall_mem_cons.2
      ⟨ScalarDouble16.arith, List.forall_mem_cons.2 ⟨ScalarDouble32.arith, List.forall_mem_nil _⟩⟩⟩⟩⟩⟩
  | .neon_prec => List.forall_mem_cons.2 ⟨ScalarDouble1.arith, List.forall_mem_cons.2 ⟨ScalarDouble2.arith,
      List.forall_mem_cons.2 ⟨ScalarDouble4.arith, List.forall_mem_cons.2 ⟨ScalarDouble8.arith, List.forall_mem_cons.2
      ⟨ScalarDouble16.arith, List.forall_mem_cons.2 ⟨ScalarDouble32.arith, List.forall_mem_nil _⟩⟩⟩⟩⟩⟩
  | .neon_prec_lp64 => List.forall_mem_cons.2 ⟨ScalarDouble1.arith, List.forall_mem_cons.2 ⟨ScalarDouble2.arith,
      List.forall_mem_cons.2 ⟨ScalarDouble4.arith, List.forall_mem_cons.2 ⟨ScalarDouble8.arith, List.forall_mem_cons.2
      ⟨ScalarDouble16.arith, List.forall_mem_cons.2 ⟨ScalarDouble32.arith, List.forall_mem_nil _⟩⟩⟩⟩⟩⟩
  | .mic => List.forall_mem_cons.2 ⟨ScalarDouble1.arith, List.forall_mem_cons.2 ⟨ScalarDouble2.arith, List.forall_mem_cons.2
      ⟨ScalarDouble4.arith, List.forall_mem_cons.2 ⟨MicDouble8.arith, List.forall_mem_cons.2 ⟨MicDouble16.arith,
      List.forall_mem_cons.2 ⟨MicDouble32.arith, List.forall_mem_nil _⟩⟩⟩⟩⟩⟩
  | .avx512f => List.forall_mem_cons.2 ⟨ScalarDouble1.arith, List.forall_mem_cons.2 ⟨SseDouble2.arith_avx512f,
      List.forall_mem_cons.2 ⟨AvxDouble4.arith_avx512f, List.forall_mem_cons.2 ⟨Avx512Double8.arith, List.forall_mem_cons.2
      ⟨Avx512Double16.arith, List.forall_mem_cons.2 ⟨Avx512Double32.arith, List.forall_mem_nil _⟩⟩⟩⟩⟩⟩
  | .avx => List.forall_mem_cons.2 ⟨ScalarDouble1.arith, List.forall_mem_cons.2 ⟨SseDouble2.arith_avx512f,
      List.forall_mem_cons.2 ⟨AvxDouble4.arith_avx, List.forall_mem_cons.2 ⟨AvxDouble8.arith_avx, List.forall_mem_cons.2
      ⟨AvxDouble16.arith_avx, List.forall_mem_cons.2 ⟨AvxDouble32.arith_avx, List.forall_mem_nil _⟩⟩⟩⟩⟩⟩
  | .avx2 => List.forall_mem_cons.2 ⟨ScalarDouble1.arith, List.forall_mem_cons.2 ⟨SseDouble2.arith_avx512f,
      List.forall_mem_cons.2 ⟨AvxDouble4.arith_avx512f, List.forall_mem_cons.2 ⟨AvxDouble8.arith_avx2, List.forall_mem_cons.2
      ⟨AvxDouble16.arith_avx2, List.forall_mem_cons.2 ⟨AvxDouble32.arith_avx2, List.forall_mem_nil _⟩⟩⟩⟩⟩⟩
  | .sse => List.forall_mem_cons.2 ⟨ScalarDouble1.arith, List.forall_mem_cons.2 ⟨SseDouble2.arith_sse, List.forall_mem_cons.2
      ⟨SseDouble4.arith_sse, List.forall_mem_cons.2 ⟨SseDouble8.arith_sse, List.forall_mem_cons.2 ⟨SseDouble16.arith_sse,
      List.forall_mem_cons.2 ⟨SseDouble32.arith_sse, List.forall_mem_nil _⟩⟩⟩⟩⟩⟩
  | .sse2 => List.forall_mem_cons.2 ⟨ScalarDouble1.arith, List.forall_mem_cons.2 ⟨SseDouble2.arith_sse, List.forall_mem_cons.2
      ⟨SseDouble4.arith_sse, List.forall_mem_cons.2 ⟨SseDouble8.arith_sse, List.forall_mem_cons.2 ⟨SseDouble16.arith_sse,
      List.forall_mem_cons.2 ⟨SseDouble32.arith_sse, List.forall_mem_nil _⟩⟩⟩⟩⟩⟩
  | .sse41 => List.forall_mem_cons.2 ⟨ScalarDouble1.arith, List.forall_mem_cons.2 ⟨SseDouble2.arith_avx512f,
      List.forall_mem_cons.2 ⟨SseDouble4.arith_sse41, List.forall_mem_cons.2 ⟨SseDouble8.arith_sse41, List.forall_mem_cons.2
      ⟨SseDouble16.arith_sse41, List.forall_mem_cons.2 ⟨SseDouble32.arith_sse41, List.forall_mem_nil _⟩⟩⟩⟩⟩⟩

theorem double_mem : ∀ c, ∀ e ∈ doubleVecs c, MemLaws e.impl (doubleReqs c e.impl.N)
  | .scalar => List.forall_mem_cons.2 ⟨ScalarDouble1.mem, List.forall_mem_cons.2 ⟨ScalarDouble2.mem, List.forall_mem_cons.2
      ⟨ScalarDouble4.mem, List.forall_mem_cons.2 ⟨ScalarDouble8.mem, List.forall_mem_cons.2 ⟨ScalarDouble16.mem,
      List.forall_mem_cons.2 ⟨ScalarDouble32.mem, List.forall_mem_nil _⟩⟩⟩⟩⟩⟩
  | .qpx => List.forall_mem_cons.2 ⟨ScalarDouble1.mem, List.forall_mem_cons.2 ⟨ScalarDouble2.mem, List.forall_mem_cons.2
      ⟨QpxDouble4.mem, List.forall_mem_cons.2 ⟨QpxDouble8.mem, List.forall_mem_cons.2 ⟨QpxDouble16.mem, List.forall_mem_cons.2
      ⟨QpxDouble32.mem, List.forall_mem_nil _⟩⟩⟩⟩⟩⟩
  | .neon => List.forall_mem_cons.2 ⟨ScalarDouble1.mem, List.forall_mem_cons.2 ⟨ScalarDouble2.mem, List.forall_mem_cons.2
      ⟨ScalarDouble4.mem, List.forall_mem_cons.2 ⟨ScalarDouble8.mem, List.forall_mem_cons.2 ⟨ScalarDouble16.mem,
      List.forall_mem_cons.2 ⟨ScalarDouble32.mem, List.forall_mem_nil _⟩⟩⟩⟩⟩⟩
  | .neon_lp64 => List.forall_mem_cons.2 ⟨ScalarDouble1.mem, List.forall_mem_cons.2 ⟨ScalarDouble2.mem, List.forall_mem_cons.2
      ⟨ScalarDouble4.mem, List.forall_mem_cons.2 ⟨ScalarDouble8.mem, List.forall_mem_cons.2 ⟨ScalarDouble16.mem,
      List.forall_mem_cons.2 ⟨ScalarDouble32.mem, List.forall_mem_nil _⟩⟩⟩⟩⟩⟩
  | .neon_prec => List.forall_mem_cons.2 ⟨ScalarDouble1.mem, List.forall_mem_cons.2 ⟨ScalarDouble2.mem, List.forall_mem_cons.2
      ⟨ScalarDouble4.mem, List.forall_mem_cons.2 ⟨ScalarDouble8.mem, List.forall_mem_cons.2 ⟨ScalarDouble16.mem,
      List.forall_mem_cons.2 ⟨ScalarDouble32.mem, List.forall_mem_nil _⟩⟩⟩⟩⟩⟩
  | .neon_prec_lp64 => List.forall_mem_cons.2 ⟨ScalarDouble1.mem, List.forall_mem_cons.2 ⟨ScalarDouble2.mem,
      List.forall_mem_cons.2 ⟨ScalarDouble4.mem, List.forall_mem_cons.2 ⟨ScalarDouble8.mem, List.forall_mem_cons.2
      ⟨ScalarDouble16.mem, List.forall_mem_cons.2 ⟨ScalarDouble32.mem, List.forall_mem_nil _⟩⟩⟩⟩⟩⟩
  | .mic => List.forall_mem_cons.2 ⟨ScalarDouble1.mem, List.forall_mem_cons.2 ⟨ScalarDouble2.mem, List.forall_mem_cons.2
      ⟨ScalarDouble4.mem, List.forall_mem_cons.2 ⟨MicDouble8.mem, List.forall_mem_cons.2 ⟨MicDouble16.mem,
      List.forall_mem_cons.2 ⟨MicDouble32.mem, List.forall_mem_nil _⟩⟩⟩⟩⟩⟩
  | .avx512f => List.forall_mem_cons.2 ⟨ScalarDouble1.mem, List.forall_mem_cons.2 ⟨SseDouble2.mem_avx512f,
      List.forall_mem_cons.2 ⟨AvxDouble4.mem_avx512f, List.forall_mem_cons.2 ⟨Avx512Double8.mem, List.forall_mem_cons.2
      ⟨Avx512Double16.mem, List.forall_mem_cons.2 ⟨Avx512Double32.mem, List.forall_mem_nil _⟩⟩⟩⟩⟩⟩
  | .avx => List.forall_mem_cons.2 ⟨ScalarDouble1.mem, List.forall_mem_cons.2 ⟨SseDouble2.mem_avx512f, List.forall_mem_cons.2
      ⟨AvxDouble4.mem_avx, List.forall_mem_cons.2 ⟨AvxDouble8.mem_avx, List.forall_mem_cons.2 ⟨AvxDouble16.mem_avx,
      List.forall_mem_cons.2 ⟨AvxDouble32.mem_avx, List.forall_mem_nil _⟩⟩⟩⟩⟩⟩
  | .avx2 => List.forall_mem_cons.2 ⟨ScalarDouble1.mem, List.forall_mem_cons.2 ⟨SseDouble2.mem_avx512f, List.forall_mem_cons.2
      ⟨AvxDouble4.mem_avx512f, List.forall_mem_cons.2 ⟨AvxDouble8.mem_avx2, List.forall_mem_cons.2 ⟨AvxDouble16.mem_avx2,
      List.forall_mem_cons.2 ⟨AvxDouble32.mem_avx2, List.forall_mem_nil _⟩⟩⟩⟩⟩⟩
  | .sse => List.forall_mem_cons.2 ⟨ScalarDouble1.mem, List.forall_mem_cons.2 ⟨SseDouble2.mem_sse, List.forall_mem_cons.2
      ⟨SseDouble4.mem_sse, List.forall_mem_cons.2 ⟨SseDouble8.mem_sse, List.forall_mem_cons.2 ⟨SseDouble16.mem_sse,
      List.forall_mem_cons.2 ⟨SseDouble32.mem_sse, List.forall_mem_nil _⟩⟩⟩⟩⟩⟩
  | .sse2 => List.forall_mem_cons.2 ⟨ScalarDouble1.mem, List.forall_mem_cons.2 ⟨SseDouble2.mem_sse, List.forall_mem_cons.2
      ⟨SseDouble4.mem_sse, List.forall_mem_cons.2 ⟨SseDouble8.mem_sse, List.forall_mem_cons.2 ⟨SseDouble16.mem_sse,
      List.forall_mem_cons.2 ⟨SseDouble32.mem_sse, List.forall_mem_nil _⟩⟩⟩⟩⟩⟩
  | .sse41 => List.forall_mem_cons.2 ⟨ScalarDouble1.mem, List.forall_mem_cons.2 ⟨SseDouble2.mem_avx512f, List.forall_mem_cons.2
      ⟨SseDouble4.mem_sse41, List.forall_mem_cons.2 ⟨SseDouble8.mem_sse41, List.forall_mem_cons.2 ⟨SseDouble16.mem_sse41,
      List.forall_mem_cons.2 ⟨SseDouble32.mem_sse41, List.forall_mem_nil _⟩⟩⟩⟩⟩⟩

theorem int_arith : ∀ c, ∀ e ∈ intVecs c, Arith e.impl (intOps c e.impl.N)
  | .scalar => List.forall_mem_cons.2 ⟨ScalarInt1.arith, List.forall_mem_cons.2 ⟨ScalarInt2.arith, List.forall_mem_cons.2
      ⟨ScalarInt4.arith, List.forall_mem_cons.2 ⟨ScalarInt8.arith, List.forall_mem_cons.2 ⟨ScalarInt16.arith,
      List.forall_mem_cons.2 ⟨ScalarInt32.arith, List.forall_mem_nil _⟩⟩⟩⟩⟩⟩
  | .qpx => List.forall_mem_cons.2 ⟨ScalarInt1.arith, List.forall_mem_cons.2 ⟨ScalarInt2.arith, List.forall_mem_cons.2
      ⟨ScalarInt4.arith, List.forall_mem_cons.2 ⟨ScalarInt8.arith, List.forall_mem_cons.2 ⟨ScalarInt16.arith,
      List.forall_mem_cons.2 ⟨ScalarInt32.arith, List.forall_mem_nil _⟩⟩⟩⟩⟩⟩
  | .neon => List.forall_mem_cons.2 ⟨ScalarInt1.arith, List.forall_mem_cons.2 ⟨ScalarInt2.arith, List.forall_mem_cons.2
      ⟨ScalarInt4.arith, List.forall_mem_cons.2 ⟨ScalarInt8.arith, List.forall_mem_cons.2 ⟨ScalarInt16.arith,
      List.forall_mem_cons.2 ⟨ScalarInt32.arith, List.forall_mem_nil _⟩⟩⟩⟩⟩⟩
  | .neon_lp64 => List.forall_mem_cons.2 ⟨ScalarInt1.arith, List.forall_mem_cons.2 ⟨ScalarInt2.arith, List.forall_mem_cons.2
      ⟨ScalarInt4.arith, List.forall_mem_cons.2 ⟨ScalarInt8.arith, List.forall_mem_cons.2 ⟨ScalarInt16.arith,
      List.forall_mem_cons.2 ⟨ScalarInt32.arith, List.forall_mem_nil _⟩⟩⟩⟩⟩⟩
  | .neon_prec => List.forall_mem_cons.2 ⟨ScalarInt1.arith, List.forall_mem_cons.2 ⟨ScalarInt2.arith, List.forall_mem_cons.2
      ⟨ScalarInt4.arith, List.forall_mem_cons.2 ⟨ScalarInt8.arith, List.forall_mem_cons.2 ⟨ScalarInt16.arith,
      List.forall_mem_cons.2 ⟨ScalarInt32.arith, List.forall_mem_nil _⟩⟩⟩⟩⟩⟩
  | .neon_prec_lp64 => List.forall_mem_cons.2 ⟨ScalarInt1.arith, List.forall_mem_cons.2 ⟨ScalarInt2.arith,
      List.forall_mem_cons.2 ⟨ScalarInt4.arith, List.forall_mem_cons.2 ⟨ScalarInt8.arith, List.forall_mem_cons.2
      ⟨ScalarInt16.arith, List.forall_mem_cons.2 ⟨ScalarInt32.arith, List.forall_mem_nil _⟩⟩⟩⟩⟩⟩
  | .mic => List.forall_mem_cons.2 ⟨ScalarInt1.arith, List.forall_mem_cons.2 ⟨ScalarInt2.arith, List.forall_mem_cons.2
      ⟨ScalarInt4.arith, List.forall_mem_cons.2 ⟨ScalarInt8.arith, List.forall_mem_cons.2 ⟨ScalarInt16.arith,
      List.forall_mem_cons.2 ⟨ScalarInt32.arith, List.forall_mem_nil _⟩⟩⟩⟩⟩⟩
  | .avx512f => List.forall_mem_cons.2 ⟨ScalarInt1.arith, List.forall_mem_cons.2 ⟨ScalarInt2.arith, List.forall_mem_cons.2
      ⟨SseInt4.arith_avx512f, List.forall_mem_cons.2 ⟨AvxInt8.arith, List.forall_mem_cons.2 ⟨Avx512Int16.arith,
      List.forall_mem_cons.2 ⟨Avx512Int32.arith, List.forall_mem_nil _⟩⟩⟩⟩⟩⟩
  | .avx => List.forall_mem_cons.2 ⟨ScalarInt1.arith, List.forall_mem_cons.2 ⟨ScalarInt2.arith, List.forall_mem_cons.2
      ⟨SseInt4.arith_avx512f, List.forall_mem_cons.2 ⟨SseInt8.arith_avx, List.forall_mem_cons.2 ⟨SseInt16.arith_avx,
      List.forall_mem_cons.2 ⟨SseInt32.arith_avx, List.forall_mem_nil _⟩⟩⟩⟩⟩⟩
  | .avx2 => List.forall_mem_cons.2 ⟨ScalarInt1.arith, List.forall_mem_cons.2 ⟨ScalarInt2.arith, List.forall_mem_cons.2
      ⟨SseInt4.arith_avx512f, List.forall_mem_cons.2 ⟨AvxInt8.arith, List.forall_mem_cons.2 ⟨AvxInt16.arith,
      List.forall_mem_cons.2 ⟨AvxInt32.arith, List.forall_mem_nil _⟩⟩⟩⟩⟩⟩
  | .sse => List.forall_mem_cons.2 ⟨ScalarInt1.arith, List.forall_mem_cons.2 ⟨ScalarInt2.arith, List.forall_mem_cons.2
      ⟨SseInt4.arith_sse, List.forall_mem_cons.2 ⟨SseInt8.arith_sse, List.forall_mem_cons.2 ⟨SseInt16.arith_sse,
      List.forall_mem_cons.2 ⟨SseInt32.arith_sse, List.forall_mem_nil _⟩⟩⟩⟩⟩⟩
  | .sse2 => List.forall_mem_cons.2 ⟨ScalarInt1.arith, List.forall_mem_cons.2 ⟨ScalarInt2.arith, List.forall_mem_cons.2
      ⟨SseInt4.arith_sse, List.forall_mem_cons.2 ⟨SseInt8.arith_sse, List.forall_mem_cons.2 ⟨SseInt16.arith_sse,
      List.forall_mem_cons.2 ⟨SseInt32.arith_sse, List.forall_mem_nil _⟩⟩⟩⟩⟩⟩
  | .sse41 => List.forall_mem_cons.2 ⟨ScalarInt1.arith, List.forall_mem_cons.2 ⟨ScalarInt2.arith, List.forall_mem_cons.2
      ⟨SseInt4.arith_avx512f, List.forall_mem_cons.2 ⟨SseInt8.arith_avx, List.forall_mem_cons.2 ⟨SseInt16.arith_avx,
      List.forall_mem_cons.2 ⟨SseInt32.arith_avx, List.forall_mem_nil _⟩⟩⟩⟩⟩⟩

theorem int_mem : ∀ c, ∀ e ∈ intVecs c, MemLaws e.impl (intReqs c e.impl.N)
  | .scalar => List.forall_mem_cons.2 ⟨ScalarInt1.mem, List.forall_mem_cons.2 ⟨ScalarInt2.mem, List.forall_mem_cons.2
      ⟨ScalarInt4.mem, List.forall_mem_cons.2 ⟨ScalarInt8.mem, List.forall_mem_cons.2 ⟨ScalarInt16.mem, List.forall_mem_cons.2
      ⟨ScalarInt32.mem, List.forall_mem_nil _⟩⟩⟩⟩⟩⟩
  | .qpx => List.forall_mem_cons.2 ⟨ScalarInt1.mem, List.forall_mem_cons.2 ⟨ScalarInt2.mem, List.forall_mem_cons.2
      ⟨ScalarInt4.mem, List.forall_mem_cons.2 ⟨ScalarInt8.mem, List.forall_mem_cons.2 ⟨ScalarInt16.mem, List.forall_mem_cons.2
      ⟨ScalarInt32.mem, List.forall_mem_nil _⟩⟩⟩⟩⟩⟩
  | .neon => List.forall_mem_cons.2 ⟨ScalarInt1.mem, List.forall_mem_cons.2 ⟨ScalarInt2.mem, List.forall_mem_cons.2
      ⟨ScalarInt4.mem, List.forall_mem_cons.2 ⟨ScalarInt8.mem, List.forall_mem_cons.2 ⟨ScalarInt16.mem, List.forall_mem_cons.2
      ⟨ScalarInt32.mem, List.forall_mem_nil _⟩⟩⟩⟩⟩⟩
  | .neon_lp64 => List.forall_mem_cons.2 ⟨ScalarInt1.mem, List.forall_mem_cons.2 ⟨ScalarInt2.mem, List.forall_mem_cons.2
      ⟨ScalarInt4.mem, List.forall_mem_cons.2 ⟨ScalarInt8.mem, List.forall_mem_cons.2 ⟨ScalarInt16.mem, List.forall_mem_cons.2
      ⟨ScalarInt32.mem, List.forall_mem_nil _⟩⟩⟩⟩⟩⟩
  | .neon_prec => List.forall_mem_cons.2 ⟨ScalarInt1.mem, List.forall_mem_cons.2 ⟨ScalarInt2.mem, List.forall_mem_cons.2
      ⟨ScalarInt4.mem, List.forall_mem_cons.2 ⟨ScalarInt8.mem, List.forall_mem_cons.2 ⟨ScalarInt16.mem, List.forall_mem_cons.2
      ⟨ScalarInt32.mem, List.forall_mem_nil _⟩⟩⟩⟩⟩⟩
  | .neon_prec_lp64 => List.forall_mem_cons.2 ⟨ScalarInt1.mem, List.forall_mem_cons.2 ⟨ScalarInt2.mem, List.forall_mem_cons.2
      ⟨ScalarInt4.mem, List.forall_mem_cons.2 ⟨ScalarInt8.mem, List.forall_mem_cons.2 ⟨ScalarInt16.mem, List.forall_mem_cons.2
      ⟨ScalarInt32.mem, List.forall_mem_nil _⟩⟩⟩⟩⟩⟩
  | .mic => List.forall_mem_cons.2 ⟨ScalarInt1.mem, List.forall_mem_cons.2 ⟨ScalarInt2.mem, List.forall_mem_cons.2
      ⟨ScalarInt4.mem, List.forall_mem_cons.2 ⟨ScalarInt8.mem, List.forall_mem_cons.2 ⟨ScalarInt16.mem, List.forall_mem_cons.2
      ⟨ScalarInt32.mem, List.forall_mem_nil _⟩⟩⟩⟩⟩⟩
  | .avx512f => List.forall_mem_cons.2 ⟨ScalarInt1.mem, List.forall_mem_cons.2 ⟨ScalarInt2.mem, List.forall_mem_cons.2
      ⟨SseInt4.mem_avx512f, List.forall_mem_cons.2 ⟨AvxInt8.mem, List.forall_mem_cons.2 ⟨Avx512Int16.mem, List.forall_mem_cons.2
      ⟨Avx512Int32.mem, List.forall_mem_nil _⟩⟩⟩⟩⟩⟩
  | .avx => List.forall_mem_cons.2 ⟨ScalarInt1.mem, List.forall_mem_cons.2 ⟨ScalarInt2.mem, List.forall_mem_cons.2
      ⟨SseInt4.mem_avx512f, List.forall_mem_cons.2 ⟨SseInt8.mem_avx, List.forall_mem_cons.2 ⟨SseInt16.mem_avx,
      List.forall_mem_cons.2 ⟨SseInt32.mem_avx, List.forall_mem_nil _⟩⟩⟩⟩⟩⟩
  | .avx2 => List.forall_mem_cons.2 ⟨ScalarInt1.mem, List.forall_mem_cons.2 ⟨ScalarInt2.mem, List.forall_mem_cons.2
      ⟨SseInt4.mem_avx512f, List.forall_mem_cons.2 ⟨AvxInt8.mem, List.forall_mem_cons.2 ⟨AvxInt16.mem, List.forall_mem_cons.2
      ⟨AvxInt32.mem, List.forall_mem_nil _⟩⟩⟩⟩⟩⟩
  | .sse => List.forall_mem_cons.2 ⟨ScalarInt1.mem, List.forall_mem_cons.2 ⟨ScalarInt2.mem, List.forall_mem_cons.2
      ⟨SseInt4.mem_sse, List.forall_mem_cons.2 ⟨SseInt8.mem_sse, List.forall_mem_cons.2 ⟨SseInt16.mem_sse,
      List.forall_mem_cons.2 ⟨SseInt32.mem_sse, List.forall_mem_nil _⟩⟩⟩⟩⟩⟩
  | .sse2 => List.forall_mem_cons.2 ⟨ScalarInt1.mem, List.forall_mem_cons.2 ⟨ScalarInt2.mem, List.forall_mem_cons.2
      ⟨SseInt4.mem_sse, List.forall_mem_cons.2 ⟨SseInt8.mem_sse, List.forall_mem_cons.2 ⟨SseInt16.mem_sse,
      List.forall_mem_cons.2 ⟨SseInt32.mem_sse, List.forall_mem_nil _⟩⟩⟩⟩⟩⟩
  | .sse41 => List.forall_mem_cons.2 ⟨ScalarInt1.mem, List.forall_mem_cons.2 ⟨ScalarInt2.mem, List.forall_mem_cons.2
      ⟨SseInt4.mem_avx512f, List.forall_mem_cons.2 ⟨SseInt8.mem_avx, List.forall_mem_cons.2 ⟨SseInt16.mem_avx,
      List.forall_mem_cons.2 ⟨SseInt32.mem_avx, List.forall_mem_nil _⟩⟩⟩⟩⟩⟩

theorem float_cmp : ∀ c, ∀ e ∈ floatVecs c, ∀ C, e.cmp = some C → CmpLaws C FEnv.f32
  | .scalar => List.forall_mem_cons.2 ⟨cmpOf ScalarFloat1.cmpLaws, List.forall_mem_cons.2 ⟨cmpOf ScalarFloat2.cmpLaws,
      List.forall_mem_cons.2 ⟨cmpOf ScalarFloat4.cmpLaws, List.forall_mem_cons.2 ⟨cmpOf ScalarFloat8.cmpLaws,
      List.forall_mem_cons.2 ⟨cmpOf ScalarFloat16.cmpLaws, List.forall_mem_cons.2 ⟨cmpOf ScalarFloat32.cmpLaws,
      List.forall_mem_nil _⟩⟩⟩⟩⟩⟩
  | .qpx => List.forall_mem_cons.2 ⟨cmpOf ScalarFloat1.cmpLaws, List.forall_mem_cons.2 ⟨cmpOf ScalarFloat2.cmpLaws,
      List.forall_mem_cons.2 ⟨cmpOf ScalarFloat4.cmpLaws, List.forall_mem_cons.2 ⟨cmpOf ScalarFloat8.cmpLaws,
      List.forall_mem_cons.2 ⟨cmpOf ScalarFloat16.cmpLaws, List.forall_mem_nil _⟩⟩⟩⟩⟩
  | .neon => List.forall_mem_cons.2 ⟨cmpOf ScalarFloat1.cmpLaws, List.forall_mem_cons.2 ⟨cmpOf ScalarFloat2.cmpLaws,
      List.forall_mem_cons.2 ⟨fun _ h => (nomatch h), List.forall_mem_cons.2 ⟨fun _ h => (nomatch h), List.forall_mem_cons.2
      ⟨fun _ h => (nomatch h), List.forall_mem_cons.2 ⟨fun _ h => (nomatch h), List.forall_mem_nil _⟩⟩⟩⟩⟩⟩
  | .neon_lp64 => List.forall_mem_cons.2 ⟨cmpOf ScalarFloat1.cmpLaws, List.forall_mem_cons.2 ⟨cmpOf ScalarFloat2.cmpLaws,
      List.forall_mem_cons.2 ⟨fun _ h => (nomatch h), List.forall_mem_cons.2 ⟨fun _ h => (nomatch h), List.forall_mem_cons.2
      ⟨fun _ h => (nomatch h), List.forall_mem_cons.2 ⟨fun _ h => (nomatch h), List.forall_mem_nil _⟩⟩⟩⟩⟩⟩
  | .neon_prec => List.forall_mem_cons.2 ⟨cmpOf ScalarFloat1.cmpLaws, List.forall_mem_cons.2 ⟨cmpOf ScalarFloat2.cmpLaws,
      List.forall_mem_cons.2 ⟨fun _ h => (nomatch h), List.forall_mem_cons.2 ⟨fun _ h => (nomatch h), List.forall_mem_cons.2
      ⟨fun _ h => (nomatch h), List.forall_mem_cons.2 ⟨fun _ h => (nomatch h), List.forall_mem_nil _⟩⟩⟩⟩⟩⟩
  | .neon_prec_lp64 => List.forall_mem_cons.2 ⟨cmpOf ScalarFloat1.cmpLaws, List.forall_mem_cons.2 ⟨cmpOf ScalarFloat2.cmpLaws,
      List.forall_mem_cons.2 ⟨fun _ h => (nomatch h), List.forall_mem_cons.2 ⟨fun _ h => (nomatch h), List.forall_mem_cons.2
      ⟨fun _ h => (nomatch h), List.forall_mem_cons.2 ⟨fun _ h => (nomatch h), List.forall_mem_nil _⟩⟩⟩⟩⟩⟩
  | .mic => List.forall_mem_cons.2 ⟨cmpOf ScalarFloat1.cmpLaws, List.forall_mem_cons.2 ⟨cmpOf ScalarFloat2.cmpLaws,
      List.forall_mem_cons.2 ⟨cmpOf ScalarFloat4.cmpLaws, List.forall_mem_cons.2 ⟨cmpOf ScalarFloat8.cmpLaws,
      List.forall_mem_cons.2 ⟨fun _ h => (nomatch h), List.forall_mem_cons.2 ⟨fun _ h => (nomatch h), List.forall_mem_nil
      _⟩⟩⟩⟩⟩⟩
  | .avx512f => List.forall_mem_cons.2 ⟨cmpOf ScalarFloat1.cmpLaws, List.forall_mem_cons.2 ⟨cmpOf ScalarFloat2.cmpLaws,
      List.forall_mem_cons.2 ⟨cmpOf SseFloat4.cmpLaws_avx512f, List.forall_mem_cons.2 ⟨cmpOf AvxFloat8.cmpLaws_avx512f,
      List.forall_mem_cons.2 ⟨cmpOf Avx512Float16.cmpLaws, List.forall_mem_cons.2 ⟨cmpOf Avx512Float32.cmpLaws,
      List.forall_mem_nil _⟩⟩⟩⟩⟩⟩
  | .avx => List.forall_mem_cons.2 ⟨cmpOf ScalarFloat1.cmpLaws, List.forall_mem_cons.2 ⟨cmpOf ScalarFloat2.cmpLaws,
      List.forall_mem_cons.2 ⟨cmpOf SseFloat4.cmpLaws_avx512f, List.forall_mem_cons.2 ⟨cmpOf AvxFloat8.cmpLaws_avx,
      List.forall_mem_cons.2 ⟨cmpOf AvxFloat16.cmpLaws_avx, List.forall_mem_cons.2 ⟨cmpOf AvxFloat32.cmpLaws_avx,
      List.forall_mem_nil _⟩⟩⟩⟩⟩⟩
  | .avx2 => List.forall_mem_cons.2 ⟨cmpOf ScalarFloat1.cmpLaws, List.forall_mem_cons.2 ⟨cmpOf ScalarFloat2.cmpLaws,
      List.forall_mem_cons.2 ⟨cmpOf SseFloat4.cmpLaws_avx512f, List.forall_mem_cons.2 ⟨cmpOf AvxFloat8.cmpLaws_avx512f,
      List.forall_mem_cons.2 ⟨cmpOf AvxFloat16.cmpLaws_avx2, List.forall_mem_cons.2 ⟨cmpOf AvxFloat32.cmpLaws_avx2,
      List.forall_mem_nil _⟩⟩⟩⟩⟩⟩
  | .sse => List.forall_mem_cons.2 ⟨cmpOf ScalarFloat1.cmpLaws, List.forall_mem_cons.2 ⟨cmpOf ScalarFloat2.cmpLaws,
      List.forall_mem_cons.2 ⟨cmpOf SseFloat4.cmpLaws_sse, List.forall_mem_cons.2 ⟨cmpOf SseFloat8.cmpLaws_sse,
      List.forall_mem_cons.2 ⟨cmpOf SseFloat16.cmpLaws_sse, List.forall_mem_cons.2 ⟨cmpOf SseFloat32.cmpLaws_sse,
      List.forall_mem_nil _⟩⟩⟩⟩⟩⟩
  | .sse2 => List.forall_mem_cons.2 ⟨cmpOf ScalarFloat1.cmpLaws, List.forall_mem_cons.2 ⟨cmpOf ScalarFloat2.cmpLaws,
      List.forall_mem_cons.2 ⟨cmpOf SseFloat4.cmpLaws_sse, List.forall_mem_cons.2 ⟨cmpOf SseFloat8.cmpLaws_sse,
      List.forall_mem_cons.2 ⟨cmpOf SseFloat16.cmpLaws_sse, List.forall_mem_cons.2 ⟨cmpOf SseFloat32.cmpLaws_sse,
      List.forall_mem_nil _⟩⟩⟩⟩⟩⟩
  | .sse41 => List.forall_mem_cons.2 ⟨cmpOf ScalarFloat1.cmpLaws, List.forall_mem_cons.2 ⟨cmpOf ScalarFloat2.cmpLaws,
      List.forall_mem_cons.2 ⟨cmpOf SseFloat4.cmpLaws_avx512f, List.forall_mem_cons.2 ⟨cmpOf SseFloat8.cmpLaws_sse41,
      List.forall_mem_cons.2 ⟨cmpOf SseFloat16.cmpLaws_sse41, List.forall_mem_cons.2 ⟨cmpOf SseFloat32.cmpLaws_sse41,
      List.forall_mem_nil _⟩⟩⟩⟩⟩⟩

theorem double_cmp : ∀ c, ∀ e ∈ doubleVecs c, ∀ C, e.cmp = some C → CmpLaws C FEnv.f64
  | .scalar => List.forall_mem_cons.2 ⟨cmpOf ScalarDouble1.cmpLaws, List.forall_mem_cons.2 ⟨cmpOf ScalarDouble2.cmpLaws,
      List.forall_mem_cons.2 ⟨cmpOf ScalarDouble4.cmpLaws, List.forall_mem_cons.2 ⟨cmpOf ScalarDouble8.cmpLaws,
      List.forall_mem_cons.2 ⟨cmpOf ScalarDouble16.cmpLaws, List.forall_mem_cons.2 ⟨cmpOf ScalarDouble32.cmpLaws,
      List.forall_mem_nil _⟩⟩⟩⟩⟩⟩
  | .qpx => List.forall_mem_cons.2 ⟨cmpOf ScalarDouble1.cmpLaws, List.forall_mem_cons.2 ⟨cmpOf ScalarDouble2.cmpLaws,
      List.forall_mem_cons.2 ⟨fun _ h => (nomatch h), List.forall_mem_cons.2 ⟨fun _ h => (nomatch h), List.forall_mem_cons.2
      ⟨fun _ h => (nomatch h), List.forall_mem_cons.2 ⟨fun _ h => (nomatch h), List.forall_mem_nil _⟩⟩⟩⟩⟩⟩
  | .neon => List.forall_mem_cons.2 ⟨cmpOf ScalarDouble1.cmpLaws, List.forall_mem_cons.2 ⟨cmpOf ScalarDouble2.cmpLaws,
      List.forall_mem_cons.2 ⟨cmpOf ScalarDouble4.cmpLaws, List.forall_mem_cons.2 ⟨cmpOf ScalarDouble8.cmpLaws,
      List.forall_mem_cons.2 ⟨cmpOf ScalarDouble16.cmpLaws, List.forall_mem_cons.2 ⟨cmpOf ScalarDouble32.cmpLaws,
      List.forall_mem_nil _⟩⟩⟩⟩⟩⟩
  | .neon_lp64 => List.forall_mem_cons.2 ⟨cmpOf ScalarDouble1.cmpLaws, List.forall_mem_cons.2 ⟨cmpOf ScalarDouble2.cmpLaws,
      List.forall_mem_cons.2 ⟨cmpOf ScalarDouble4.cmpLaws, List.forall_mem_cons.2 ⟨cmpOf ScalarDouble8.cmpLaws,
      List.forall_mem_cons.2 ⟨cmpOf ScalarDouble16.cmpLaws, List.forall_mem_cons.2 ⟨cmpOf ScalarDouble32.cmpLaws,
      List.forall_mem_nil _⟩⟩⟩⟩⟩⟩
  | .neon_prec => List.forall_mem_cons.2 ⟨cmpOf ScalarDouble1.cmpLaws, List.forall_mem_cons.2 ⟨cmpOf ScalarDouble2.cmpLaws,
      List.forall_mem_cons.2 ⟨cmpOf ScalarDouble4.cmpLaws, List.forall_mem_cons.2 ⟨cmpOf ScalarDouble8.cmpLaws,
      List.forall_mem_cons.2 ⟨cmpOf ScalarDouble16.cmpLaws, List.forall_mem_cons.2 ⟨cmpOf ScalarDouble32.cmpLaws,
      List.forall_mem_nil _⟩⟩⟩⟩⟩⟩
  | .neon_prec_lp64 => List.forall_mem_cons.2 ⟨cmpOf ScalarDouble1.cmpLaws, List.forall_mem_cons.2 ⟨cmpOf ScalarDouble2.cmpLaws,
      List.forall_mem_cons.2 ⟨cmpOf ScalarDouble4.cmpLaws, List.forall_mem_cons.2 ⟨cmpOf ScalarDouble8.cmpLaws,
      List.forall_mem_cons.2 ⟨cmpOf ScalarDouble16.cmpLaws, List.forall_mem_cons.2 ⟨cmpOf ScalarDouble32.cmpLaws,
      List.forall_mem_nil _⟩⟩⟩⟩⟩⟩
  | .mic => List.forall_mem_cons.2 ⟨cmpOf ScalarDouble1.cmpLaws, List.forall_mem_cons.2 ⟨cmpOf ScalarDouble2.cmpLaws,
      List.forall_mem_cons.2 ⟨cmpOf ScalarDouble4.cmpLaws, List.forall_mem_cons.2 ⟨fun _ h => (nomatch h),
      List.forall_mem_cons.2 ⟨fun _ h => (nomatch h), List.forall_mem_cons.2 ⟨fun _ h => (nomatch h), List.forall_mem_nil
      _⟩⟩⟩⟩⟩⟩
  | .avx512f => List.forall_mem_cons.2 ⟨cmpOf ScalarDouble1.cmpLaws, List.forall_mem_cons.2 ⟨cmpOf SseDouble2.cmpLaws_avx512f,
      List.forall_mem_cons.2 ⟨cmpOf AvxDouble4.cmpLaws_avx512f, List.forall_mem_cons.2 ⟨cmpOf Avx512Double8.cmpLaws,
      List.forall_mem_cons.2 ⟨cmpOf Avx512Double16.cmpLaws, List.forall_mem_cons.2 ⟨cmpOf Avx512Double32.cmpLaws,
      List.forall_mem_nil _⟩⟩⟩⟩⟩⟩
  | .avx => List.forall_mem_cons.2 ⟨cmpOf ScalarDouble1.cmpLaws, List.forall_mem_cons.2 ⟨cmpOf SseDouble2.cmpLaws_avx512f,
      List.forall_mem_cons.2 ⟨cmpOf AvxDouble4.cmpLaws_avx, List.forall_mem_cons.2 ⟨cmpOf AvxDouble8.cmpLaws_avx,
      List.forall_mem_cons.2 ⟨cmpOf AvxDouble16.cmpLaws_avx, List.forall_mem_cons.2 ⟨cmpOf AvxDouble32.cmpLaws_avx,
      List.forall_mem_nil _⟩⟩⟩⟩⟩⟩
  | .avx2 => List.forall_mem_cons.2 ⟨cmpOf ScalarDouble1.cmpLaws, List.forall_mem_cons.2 ⟨cmpOf SseDouble2.cmpLaws_avx512f,
      List.forall_mem_cons.2 ⟨cmpOf AvxDouble4.cmpLaws_avx512f, List.forall_mem_cons.2 ⟨cmpOf AvxDouble8.cmpLaws_avx2,
      List.forall_mem_cons.2 ⟨cmpOf AvxDouble16.cmpLaws_avx2, List.forall_mem_cons.2 ⟨cmpOf AvxDouble32.cmpLaws_avx2,
      List.forall_mem_nil _⟩⟩⟩⟩⟩⟩
  | .sse => List.forall_mem_cons.2 ⟨cmpOf ScalarDouble1.cmpLaws, List.forall_mem_cons.2 ⟨cmpOf SseDouble2.cmpLaws_sse,
      List.forall_mem_cons.2 ⟨cmpOf SseDouble4.cmpLaws_sse, List.forall_mem_cons.2 ⟨cmpOf SseDouble8.cmpLaws_sse,
      List.forall_mem_cons.2 ⟨cmpOf SseDouble16.cmpLaws_sse, List.forall_mem_cons.2 ⟨cmpOf SseDouble32.cmpLaws_sse,
      List.forall_mem_nil _⟩⟩⟩⟩⟩⟩
  | .sse2 => List.forall_mem_cons.2 ⟨cmpOf ScalarDouble1.cmpLaws, List.forall_mem_cons.2 ⟨cmpOf SseDouble2.cmpLaws_sse,
      List.forall_mem_cons.2 ⟨cmpOf SseDouble4.cmpLaws_sse, List.forall_mem_cons.2 ⟨cmpOf SseDouble8.cmpLaws_sse,
      List.forall_mem_cons.2 ⟨cmpOf SseDouble16.cmpLaws_sse, List.forall_mem_cons.2 ⟨cmpOf SseDouble32.cmpLaws_sse,
      List.forall_mem_nil _⟩⟩⟩⟩⟩⟩
  | .sse41 => List.forall_mem_cons.2 ⟨cmpOf ScalarDouble1.cmpLaws, List.forall_mem_cons.2 ⟨cmpOf SseDouble2.cmpLaws_avx512f,
      List.forall_mem_cons.2 ⟨cmpOf SseDouble4.cmpLaws_sse41, List.forall_mem_cons.2 ⟨cmpOf SseDouble8.cmpLaws_sse41,
      List.forall_mem_cons.2 ⟨cmpOf SseDouble16.cmpLaws_sse41, List.forall_mem_cons.2 ⟨cmpOf SseDouble32.cmpLaws_sse41,
      List.forall_mem_nil _⟩⟩⟩⟩⟩⟩

theorem float_print : ∀ c, ∀ e ∈ floatVecs c, ∀ E, PrintLaw e.impl.lanes (e.impl.print E)
  | .scalar => List.forall_mem_cons.2 ⟨ScalarFloat1.printLaw, List.forall_mem_cons.2 ⟨ScalarFloat2.printLaw,
      List.forall_mem_cons.2 ⟨ScalarFloat4.printLaw, List.forall_mem_cons.2 ⟨ScalarFloat8.printLaw, List.forall_mem_cons.2
      ⟨ScalarFloat16.printLaw, List.forall_mem_cons.2 ⟨ScalarFloat32.printLaw, List.forall_mem_nil _⟩⟩⟩⟩⟩⟩
  | .qpx => List.forall_mem_cons.2 ⟨ScalarFloat1.printLaw, List.forall_mem_cons.2 ⟨ScalarFloat2.printLaw, List.forall_mem_cons.2
      ⟨ScalarFloat4.printLaw, List.forall_mem_cons.2 ⟨ScalarFloat8.printLaw, List.forall_mem_cons.2 ⟨ScalarFloat16.printLaw,
      List.forall_mem_nil _⟩⟩⟩⟩⟩
  | .neon => List.forall_mem_cons.2 ⟨ScalarFloat1.printLaw, List.forall_mem_cons.2 ⟨ScalarFloat2.printLaw,
      List.forall_mem_cons.2 ⟨NeonFloat4.printLaw_neon, List.forall_mem_cons.2 ⟨NeonFloat8.printLaw_neon, List.forall_mem_cons.2
      ⟨NeonFloat16.printLaw_neon, List.forall_mem_cons.2 ⟨NeonFloat32.printLaw_neon, List.forall_mem_nil _⟩⟩⟩⟩⟩⟩
  | .neon_lp64 => List.forall_mem_cons.2 ⟨ScalarFloat1.printLaw, List.forall_mem_cons.2 ⟨ScalarFloat2.printLaw,
      List.forall_mem_cons.2 ⟨NeonFloat4.printLaw_neon_lp64, List.forall_mem_cons.2 ⟨NeonFloat8.printLaw_neon_lp64,
      List.forall_mem_cons.2 ⟨NeonFloat16.printLaw_neon_lp64, List.forall_mem_cons.2 ⟨NeonFloat32.printLaw_neon_lp64,
      List.forall_mem_nil _⟩⟩⟩⟩⟩⟩
  | .neon_prec => List.forall_mem_cons.2 ⟨ScalarFloat1.printLaw, List.forall_mem_cons.2 ⟨ScalarFloat2.printLaw,
      List.forall_mem_cons.2 ⟨NeonFloat4.printLaw_neon_prec, List.forall_mem_cons.2 ⟨NeonFloat8.printLaw_neon_prec,
      List.forall_mem_cons.2 ⟨NeonFloat16.printLaw_neon_prec, List.forall_mem_cons.2 ⟨NeonFloat32.printLaw_neon_prec,
      List.forall_mem_nil _⟩⟩⟩⟩⟩⟩
  | .neon_prec_lp64 => List.forall_mem_cons.2 ⟨ScalarFloat1.printLaw, List.forall_mem_cons.2 ⟨ScalarFloat2.printLaw,
      List.forall_mem_cons.2 ⟨NeonFloat4.printLaw_neon_prec_lp64, List.forall_mem_cons.2 ⟨NeonFloat8.printLaw_neon_prec_lp64,
      List.forall_mem_cons.2 ⟨NeonFloat16.printLaw_neon_prec_lp64, List.forall_mem_cons.2 ⟨NeonFloat32.printLaw_neon_prec_lp64,
      List.forall_mem_nil _⟩⟩⟩⟩⟩⟩
  | .mic => List.forall_mem_cons.2 ⟨ScalarFloat1.printLaw, List.forall_mem_cons.2 ⟨ScalarFloat2.printLaw, List.forall_mem_cons.2
      ⟨ScalarFloat4.printLaw, List.forall_mem_cons.2 ⟨ScalarFloat8.printLaw, List.forall_mem_cons.2 ⟨MicFloat16.printLaw,
      List.forall_mem_cons.2 ⟨MicFloat32.printLaw, List.forall_mem_nil _⟩⟩⟩⟩⟩⟩
  | .avx512f => List.forall_mem_cons.2 ⟨ScalarFloat1.printLaw, List.forall_mem_cons.2 ⟨ScalarFloat2.printLaw,
      List.forall_mem_cons.2 ⟨SseFloat4.printLaw_avx512f, List.forall_mem_cons.2 ⟨AvxFloat8.printLaw_avx512f,
      List.forall_mem_cons.2 ⟨Avx512Float16.printLaw, List.forall_mem_cons.2 ⟨Avx512Float32.printLaw, List.forall_mem_nil
      _⟩⟩⟩⟩⟩⟩
  | .avx => List.forall_mem_cons.2 ⟨ScalarFloat1.printLaw, List.forall_mem_cons.2 ⟨ScalarFloat2.printLaw, List.forall_mem_cons.2
      ⟨SseFloat4.printLaw_avx512f, List.forall_mem_cons.2 ⟨AvxFloat8.printLaw_avx, List.forall_mem_cons.2
      ⟨AvxFloat16.printLaw_avx, List.forall_mem_cons.2 ⟨AvxFloat32.printLaw_avx, List.forall_mem_nil _⟩⟩⟩⟩⟩⟩
  | .avx2 => List.forall_mem_cons.2 ⟨ScalarFloat1.printLaw, List.forall_mem_cons.2 ⟨ScalarFloat2.printLaw,
      List.forall_mem_cons.2 ⟨SseFloat4.printLaw_avx512f, List.forall_mem_cons.2 ⟨AvxFloat8.printLaw_avx512f,
      List.forall_mem_cons.2 ⟨AvxFloat16.printLaw_avx2, List.forall_mem_cons.2 ⟨AvxFloat32.printLaw_avx2, List.forall_mem_nil
      _⟩⟩⟩⟩⟩⟩
  | .sse => List.forall_mem_cons.2 ⟨ScalarFloat1.printLaw, List.forall_mem_cons.2 ⟨ScalarFloat2.printLaw, List.forall_mem_cons.2
      ⟨SseFloat4.printLaw_sse, List.forall_mem_cons.2 ⟨SseFloat8.printLaw_sse, List.forall_mem_cons.2 ⟨SseFloat16.printLaw_sse,
      List.forall_mem_cons.2 ⟨SseFloat32.printLaw_sse, List.forall_mem_nil _⟩⟩⟩⟩⟩⟩
  | .sse2 => List.forall_mem_cons.2 ⟨ScalarFloat1.printLaw, List.forall_mem_cons.2 ⟨ScalarFloat2.printLaw,
      List.forall_mem_cons.2 ⟨SseFloat4.printLaw_sse, List.forall_mem_cons.2 ⟨SseFloat8.printLaw_sse, List.forall_mem_cons.2
      ⟨SseFloat16.printLaw_sse, List.forall_mem_cons.2 ⟨SseFloat32.printLaw_sse, List.forall_mem_nil _⟩⟩⟩⟩⟩⟩
  | .sse41 => List.forall_mem_cons.2 ⟨ScalarFloat1.printLaw, List.forall_mem_cons.2 ⟨ScalarFloat2.printLaw,
      List.forall_mem_cons.2 ⟨SseFloat4.printLaw_avx512f, List.forall_mem_cons.2 ⟨SseFloat8.printLaw_sse41,
      List.forall_mem_cons.2 ⟨SseFloat16.printLaw_sse41, List.forall_mem_cons.2 ⟨SseFloat32.printLaw_sse41, List.forall_mem_nil
      _⟩⟩⟩⟩⟩⟩

theorem double_print : ∀ c, ∀ e ∈ doubleVecs c, (c = .qpx → e.impl.N ≠ 32) → ∀ E, PrintLaw e.impl.lanes (e.impl.print E)
  | .scalar => List.forall_mem_cons.2 ⟨fun _ => ScalarDouble1.printLaw, List.forall_mem_cons.2 ⟨fun _ => ScalarDouble2.printLaw,
      List.forall_mem_cons.2 ⟨fun _ => ScalarDouble4.printLaw, List.forall_mem_cons.2 ⟨fun _ => ScalarDouble8.printLaw,
      List.forall_mem_cons.2 ⟨fun _ => ScalarDouble16.printLaw, List.forall_mem_cons.2 ⟨fun _ => ScalarDouble32.printLaw,
      List.forall_mem_nil _⟩⟩⟩⟩⟩⟩
  | .qpx => List.forall_mem_cons.2 ⟨fun _ => ScalarDouble1.printLaw, List.forall_mem_cons.2 ⟨fun _ => ScalarDouble2.printLaw,
      List.forall_mem_cons.2 ⟨fun _ => QpxDouble4.printLaw, List.forall_mem_cons.2 ⟨fun _ => QpxDouble8.printLaw,
      List.forall_mem_cons.2 ⟨fun _ => QpxDouble16.printLaw, List.forall_mem_cons.2 ⟨fun h => absurd rfl (h rfl),
      List.forall_mem_nil _⟩⟩⟩⟩⟩⟩
  | .neon => List.forall_mem_cons.2 ⟨fun _ => ScalarDouble1.printLaw, List.forall_mem_cons.2 ⟨fun _ => ScalarDouble2.printLaw,
      List.forall_mem_cons.2 ⟨fun _ => ScalarDouble4.printLaw, List.forall_mem_cons.2 ⟨fun _ => ScalarDouble8.printLaw,
      List.forall_mem_cons.2 ⟨fun _ => ScalarDouble16.printLaw, List.forall_mem_cons.2 ⟨fun _ => ScalarDouble32.printLaw,
      List.forall_mem_nil _⟩⟩⟩⟩⟩⟩
  | .neon_lp64 => List.forall_mem_cons.2 ⟨fun _ => ScalarDouble1.printLaw, List.forall_mem_cons.2 ⟨fun _ =>
      ScalarDouble2.printLaw, List.forall_mem_cons.2 ⟨fun _ => ScalarDouble4.printLaw, List.forall_mem_cons.2 ⟨fun _ =>
      ScalarDouble8.printLaw, List.forall_mem_cons.2 ⟨fun _ => ScalarDouble16.printLaw, List.forall_mem_cons.2 ⟨fun _ =>
      ScalarDouble32.printLaw, List.forall_mem_nil _⟩⟩⟩⟩⟩⟩
  | .neon_prec => List.forall_mem_cons.2 ⟨fun _ => ScalarDouble1.printLaw, List.forall_mem_cons.2 ⟨fun _ =>
      ScalarDouble2.printLaw, List.forall_mem_cons.2 ⟨fun _ => ScalarDouble4.printLaw, List.forall_mem_cons.2 ⟨fun _ =>
      ScalarDouble8.printLaw, List.forall_mem_cons.2 ⟨fun _ => ScalarDouble16.printLaw, List.forall_mem_cons.2 ⟨fun _ =>
      ScalarDouble32.printLaw, List.forall_mem_nil _⟩⟩⟩⟩⟩⟩
  | .neon_prec_lp64 => List.forall_mem_cons.2 ⟨fun _ => ScalarDouble1.printLaw, List.forall_mem_cons.2 ⟨fun _ =>
      ScalarDouble2.printLaw, List.forall_mem_cons.2 ⟨fun _ => ScalarDouble4.printLaw, List.forall_mem_cons.2 ⟨fun _ =>
      ScalarDouble8.printLaw, List.forall_mem_cons.2 ⟨fun _ => ScalarDouble16.printLaw, List.forall_mem_cons.2 ⟨fun _ =>
      ScalarDouble32.printLaw, List.forall_mem_nil _⟩⟩⟩⟩⟩⟩
  | .mic => List.forall_mem_cons.2 ⟨fun _ => ScalarDouble1.printLaw, List.forall_mem_cons.2 ⟨fun _ => ScalarDouble2.printLaw,
      List.forall_mem_cons.2 ⟨fun _ => ScalarDouble4.printLaw, List.forall_mem_cons.2 ⟨fun _ => MicDouble8.printLaw,
      List.forall_mem_cons.2 ⟨fun _ => MicDouble16.printLaw, List.forall_mem_cons.2 ⟨fun _ => MicDouble32.printLaw,
      List.forall_mem_nil _⟩⟩⟩⟩⟩⟩
  | .avx512f => List.forall_mem_cons.2 ⟨fun _ => ScalarDouble1.printLaw, List.forall_mem_cons.2 ⟨fun _ =>
      SseDouble2.printLaw_avx512f, List.forall_mem_cons.2 ⟨fun _ => AvxDouble4.printLaw_avx512f, List.forall_mem_cons.2 ⟨fun _
      => Avx512Double8.printLaw, List.forall_mem_cons.2 ⟨fun _ => Avx512Double16.printLaw, List.forall_mem_cons.2 ⟨fun _ =>
      Avx512Double32.printLaw, List.forall_mem_nil _⟩⟩⟩⟩⟩⟩
  | .avx => List.forall_mem_cons.2 ⟨fun _ => ScalarDouble1.printLaw, List.forall_mem_cons.2 ⟨fun _ =>
      SseDouble2.printLaw_avx512f, List.forall_mem_cons.2 ⟨fun _ => AvxDouble4.printLaw_avx, List.forall_mem_cons.2 ⟨fun _ =>
      AvxDouble8.printLaw_avx, List.forall_mem_cons.2 ⟨fun _ => AvxDouble16.printLaw_avx, List.forall_mem_cons.2 ⟨fun _ =>
      AvxDouble32.printLaw_avx, List.forall_mem_nil _⟩⟩⟩⟩⟩⟩
  | .avx2 => List.forall_mem_cons.2 ⟨fun _ => ScalarDouble1.printLaw, List.forall_mem_cons.2 ⟨fun _ =>
      SseDouble2.printLaw_avx512f, List.forall_mem_cons.2 ⟨fun _ => AvxDouble4.printLaw_avx512f, List.forall_mem_cons.2 ⟨fun _
      => AvxDouble8.printLaw_avx2, List.forall_mem_cons.2 ⟨fun _ => AvxDouble16.printLaw_avx2, List.forall_mem_cons.2 ⟨fun _ =>
      AvxDouble32.printLaw_avx2, List.forall_mem_nil _⟩⟩⟩⟩⟩⟩
  | .sse => List.forall_mem_cons.2 ⟨fun _ => ScalarDouble1.printLaw, List.forall_mem_cons.2 ⟨fun _ => SseDouble2.printLaw_sse,
      List.forall_mem_cons.2 ⟨fun _ => SseDouble4.printLaw_sse, List.forall_mem_cons.2 ⟨fun _ => SseDouble8.printLaw_sse,
      List.forall_mem_cons.2 ⟨fun _ => SseDouble16.printLaw_sse, List.forall_mem_cons.2 ⟨fun _ => SseDouble32.printLaw_sse,
      List.forall_mem_nil _⟩⟩⟩⟩⟩⟩
  | .sse2 => List.forall_mem_cons.2 ⟨fun _ => ScalarDouble1.printLaw, List.forall_mem_cons.2 ⟨fun _ => SseDouble2.printLaw_sse,
      List.forall_mem_cons.2 ⟨fun _ => SseDouble4.printLaw_sse, List.forall_mem_cons.2 ⟨fun _ => SseDouble8.printLaw_sse,
      List.forall_mem_cons.2 ⟨fun _ => SseDouble16.printLaw_sse, List.forall_mem_cons.2 ⟨fun _ => SseDouble32.printLaw_sse,
      List.forall_mem_nil _⟩⟩⟩⟩⟩⟩
  | .sse41 => List.forall_mem_cons.2 ⟨fun _ => ScalarDouble1.printLaw, List.forall_mem_cons.2 ⟨fun _ =>
      SseDouble2.printLaw_avx512f, List.forall_mem_cons.2 ⟨fun _ => SseDouble4.printLaw_sse41, List.forall_mem_cons.2 ⟨fun _ =>
      SseDouble8.printLaw_sse41, List.forall_mem_cons.2 ⟨fun _ => SseDouble16.printLaw_sse41, List.forall_mem_cons.2 ⟨fun _ =>
      SseDouble32.printLaw_sse41, List.forall_mem_nil _⟩⟩⟩⟩⟩⟩

theorem int_print : ∀ c, ∀ e ∈ intVecs c, ∀ E, PrintLaw e.impl.lanes (e.impl.print E)
  | .scalar => List.forall_mem_cons.2 ⟨ScalarInt1.printLaw, List.forall_mem_cons.2 ⟨ScalarInt2.printLaw, List.forall_mem_cons.2
      ⟨ScalarInt4.printLaw, List.forall_mem_cons.2 ⟨ScalarInt8.printLaw, List.forall_mem_cons.2 ⟨ScalarInt16.printLaw,
      List.forall_mem_cons.2 ⟨ScalarInt32.printLaw, List.forall_mem_nil _⟩⟩⟩⟩⟩⟩
  | .qpx => List.forall_mem_cons.2 ⟨ScalarInt1.printLaw, List.forall_mem_cons.2 ⟨ScalarInt2.printLaw, List.forall_mem_cons.2
      ⟨ScalarInt4.printLaw, List.forall_mem_cons.2 ⟨ScalarInt8.printLaw, List.forall_mem_cons.2 ⟨ScalarInt16.printLaw,
      List.forall_mem_cons.2 ⟨ScalarInt32.printLaw, List.forall_mem_nil _⟩⟩⟩⟩⟩⟩
  | .neon => List.forall_mem_cons.2 ⟨ScalarInt1.printLaw, List.forall_mem_cons.2 ⟨ScalarInt2.printLaw, List.forall_mem_cons.2
      ⟨ScalarInt4.printLaw, List.forall_mem_cons.2 ⟨ScalarInt8.printLaw, List.forall_mem_cons.2 ⟨ScalarInt16.printLaw,
      List.forall_mem_cons.2 ⟨ScalarInt32.printLaw, List.forall_mem_nil _⟩⟩⟩⟩⟩⟩
  | .neon_lp64 => List.forall_mem_cons.2 ⟨ScalarInt1.printLaw, List.forall_mem_cons.2 ⟨ScalarInt2.printLaw,
      List.forall_mem_cons.2 ⟨ScalarInt4.printLaw, List.forall_mem_cons.2 ⟨ScalarInt8.printLaw, List.forall_mem_cons.2
      ⟨ScalarInt16.printLaw, List.forall_mem_cons.2 ⟨ScalarInt32.printLaw, List.forall_mem_nil _⟩⟩⟩⟩⟩⟩
  | .neon_prec => List.forall_mem_cons.2 ⟨ScalarInt1.printLaw, List.forall_mem_cons.2 ⟨ScalarInt2.printLaw,
      List.forall_mem_cons.2 ⟨ScalarInt4.printLaw, List.forall_mem_cons.2 ⟨ScalarInt8.printLaw, List.forall_mem_cons.2
      ⟨ScalarInt16.printLaw, List.forall_mem_cons.2 ⟨ScalarInt32.printLaw, List.forall_mem_nil _⟩⟩⟩⟩⟩⟩
  | .neon_prec_lp64 => List.forall_mem_cons.2 ⟨ScalarInt1.printLaw, List.forall_mem_cons.2 ⟨ScalarInt2.printLaw,
      List.forall_mem_cons.2 ⟨ScalarInt4.printLaw, List.forall_mem_cons.2 ⟨ScalarInt8.printLaw, List.forall_mem_cons.2
      ⟨ScalarInt16.printLaw, List.forall_mem_cons.2 ⟨ScalarInt32.printLaw, List.forall_mem_nil _⟩⟩⟩⟩⟩⟩
  | .mic => List.forall_mem_cons.2 ⟨ScalarInt1.printLaw, List.forall_mem_cons.2 ⟨ScalarInt2.printLaw, List.forall_mem_cons.2
      ⟨ScalarInt4.printLaw, List.forall_mem_cons.2 ⟨ScalarInt8.printLaw, List.forall_mem_cons.2 ⟨ScalarInt16.printLaw,
      List.forall_mem_cons.2 ⟨ScalarInt32.printLaw, List.forall_mem_nil _⟩⟩⟩⟩⟩⟩
  | .avx512f => List.forall_mem_cons.2 ⟨ScalarInt1.printLaw, List.forall_mem_cons.2 ⟨ScalarInt2.printLaw, List.forall_mem_cons.2
      ⟨SseInt4.printLaw_avx512f, List.forall_mem_cons.2 ⟨AvxInt8.printLaw, List.forall_mem_cons.2 ⟨Avx512Int16.printLaw,
      List.forall_mem_cons.2 ⟨Avx512Int32.printLaw, List.forall_mem_nil _⟩⟩⟩⟩⟩⟩
  | .avx => List.forall_mem_cons.2 ⟨ScalarInt1.printLaw, List.forall_mem_cons.2 ⟨ScalarInt2.printLaw, List.forall_mem_cons.2
      ⟨SseInt4.printLaw_avx512f, List.forall_mem_cons.2 ⟨SseInt8.printLaw_avx, List.forall_mem_cons.2 ⟨SseInt16.printLaw_avx,
      List.forall_mem_cons.2 ⟨SseInt32.printLaw_avx, List.forall_mem_nil _⟩⟩⟩⟩⟩⟩
  | .avx2 => List.forall_mem_cons.2 ⟨ScalarInt1.printLaw, List.forall_mem_cons.2 ⟨ScalarInt2.printLaw, List.forall_mem_cons.2
      ⟨SseInt4.printLaw_avx512f, List.forall_mem_cons.2 ⟨AvxInt8.printLaw, List.forall_mem_cons.2 ⟨AvxInt16.printLaw,
      List.forall_mem_cons.2 ⟨AvxInt32.printLaw, List.forall_mem_nil _⟩⟩⟩⟩⟩⟩
  | .sse => List.forall_mem_cons.2 ⟨ScalarInt1.printLaw, List.forall_mem_cons.2 ⟨ScalarInt2.printLaw, List.forall_mem_cons.2
      ⟨SseInt4.printLaw_sse, List.forall_mem_cons.2 ⟨SseInt8.printLaw_sse, List.forall_mem_cons.2 ⟨SseInt16.printLaw_sse,
      List.forall_mem_cons.2 ⟨SseInt32.printLaw_sse, List.forall_mem_nil _⟩⟩⟩⟩⟩⟩
  | .sse2 => List.forall_mem_cons.2 ⟨ScalarInt1.printLaw, List.forall_mem_cons.2 ⟨ScalarInt2.printLaw, List.forall_mem_cons.2
      ⟨SseInt4.printLaw_sse, List.forall_mem_cons.2 ⟨SseInt8.printLaw_sse, List.forall_mem_cons.2 ⟨SseInt16.printLaw_sse,
      List.forall_mem_cons.2 ⟨SseInt32.printLaw_sse, List.forall_mem_nil _⟩⟩⟩⟩⟩⟩
  | .sse41 => List.forall_mem_cons.2 ⟨ScalarInt1.printLaw, List.forall_mem_cons.2 ⟨ScalarInt2.printLaw, List.forall_mem_cons.2
      ⟨SseInt4.printLaw_avx512f, List.forall_mem_cons.2 ⟨SseInt8.printLaw_avx, List.forall_mem_cons.2 ⟨SseInt16.printLaw_avx,
      List.forall_mem_cons.2 ⟨SseInt32.printLaw_avx, List.forall_mem_nil _⟩⟩⟩⟩⟩⟩

end LFA.SV
