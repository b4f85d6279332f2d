import Verif.SV.Ieee

/-
  The clock of the testbed: benchmark::time (testbed/benchmark.hpp:47-61, not on Windows) and the way performance_tests/main.cpp measures spans.
-/
namespace LFA
namespace Clock
open SV

/-- `t.tv_sec + t.tv_usec * 1.0e-6` (benchmark.hpp:58): `c` is the literal, `u` and `s` are the operands converted to double, `p` is the product.
    Operations round to nearest, nothing is assumed about ties. Simplification: no contraction to a fused multiply-add. -/
def Time (sec usec : Nat) (t : BitVec 64) : Prop :=
  ∃ c u p s : BitVec 64, Fmt.double.Nearest (1 / 10 ^ 6) c ∧ Fmt.double.Nearest usec u ∧ Fmt.double.Nearest (Fmt.double.val u * Fmt.double.val c) p ∧
    Fmt.double.Nearest sec s ∧ Fmt.double.Nearest (Fmt.double.val s + Fmt.double.val p) t

/-- The difference of two times (examples/performance_tests/main.cpp:133, 205, 453 and others: `tEnd - tStart`). -/
def Span (t0 t1 d : BitVec 64) : Prop := Fmt.double.Nearest (Fmt.double.val t1 - Fmt.double.val t0) d

end Clock
end LFA
