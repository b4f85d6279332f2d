/-
  Generated by tools/sv_proofs.py: the classes of SV/ScalarInt.lean obey the laws of SV/Spec.lean.
-/
import Verif.SV.ScalarInt
import Verif.SV.LaneOps
import Verif.SV.Unroll
set_option autoImplicit false
set_option linter.unusedSimpArgs false
set_option linter.unusedVariables false
set_option maxRecDepth 100000
open LFA.SV

namespace LFA.SV.ScalarInt1

theorem len_law : LenLaw 1 V.lanes :=
  fun _ => rfl

theorem bcast_law (E : FEnv) : BcastLaw 1 V.lanes (bcast E) :=
  fun _ => rfl

theorem opAdd_law (E : FEnv) : BinLaw V.lanes (fun a b => opAdd E a b) (LaneOps.int.add E) :=
  by
  intro a b r h0
  obtain ⟨c0, r0, e0, h1, q0⟩ := map2?_cons h0
  have z := map2?_nil h1
  subst z
  subst q0
  exact ⟨_, bindS e0 <| rfl, rfl⟩

theorem opSub_law (E : FEnv) : BinLaw V.lanes (fun a b => opSub E a b) (LaneOps.int.sub E) :=
  by
  intro a b r h0
  obtain ⟨c0, r0, e0, h1, q0⟩ := map2?_cons h0
  have z := map2?_nil h1
  subst z
  subst q0
  exact ⟨_, bindS e0 <| rfl, rfl⟩

theorem opMul_law (E : FEnv) : BinLaw V.lanes (fun a b => opMul E a b) (LaneOps.int.mul E) :=
  by
  intro a b r h0
  obtain ⟨c0, r0, e0, h1, q0⟩ := map2?_cons h0
  have z := map2?_nil h1
  subst z
  subst q0
  exact ⟨_, bindS e0 <| rfl, rfl⟩

theorem opDiv_law (E : FEnv) : BinLaw V.lanes (fun a b => opDiv E a b) (LaneOps.int.div E) :=
  by
  intro a b r h0
  obtain ⟨c0, r0, e0, h1, q0⟩ := map2?_cons h0
  have z := map2?_nil h1
  subst z
  subst q0
  exact ⟨_, bindS e0 <| rfl, rfl⟩

theorem opAddAssign_law (E : FEnv) : BinLaw V.lanes (fun a b => opAddAssign E a b) (LaneOps.int.add E) :=
  by
  intro a b r h0
  obtain ⟨c0, r0, e0, h1, q0⟩ := map2?_cons h0
  have z := map2?_nil h1
  subst z
  subst q0
  exact ⟨_, bindS e0 <| rfl, rfl⟩

theorem opSubAssign_law (E : FEnv) : BinLaw V.lanes (fun a b => opSubAssign E a b) (LaneOps.int.sub E) :=
  by
  intro a b r h0
  obtain ⟨c0, r0, e0, h1, q0⟩ := map2?_cons h0
  have z := map2?_nil h1
  subst z
  subst q0
  exact ⟨_, bindS e0 <| rfl, rfl⟩

theorem opMulAssign_law (E : FEnv) : BinLaw V.lanes (fun a b => opMulAssign E a b) (LaneOps.int.mulA E) :=
  by
  intro a b r h0
  obtain ⟨c0, r0, e0, h1, q0⟩ := map2?_cons h0
  have z := map2?_nil h1
  subst z
  subst q0
  exact ⟨_, bindS e0 <| rfl, rfl⟩

theorem opDivAssign_law (E : FEnv) : BinLaw V.lanes (fun a b => opDivAssign E a b) (LaneOps.int.divA E) :=
  by
  intro a b r h0
  obtain ⟨c0, r0, e0, h1, q0⟩ := map2?_cons h0
  have z := map2?_nil h1
  subst z
  subst q0
  exact ⟨_, bindS e0 <| rfl, rfl⟩

theorem sqrtFn_law (E : FEnv) : UnLaw V.lanes (fun a => some (sqrtFn E a)) (LaneOps.int.sqrt E) :=
  unSome (fun _ => rfl)

theorem sqrt_law (E : FEnv) : UnLaw V.lanes (fun a => some (sqrt E a)) (LaneOps.int.sqrt E) :=
  unSome (fun _ => rfl)

theorem load_law (E : FEnv) (v : V) : LoadLaw 1 V.lanes (fun m p => load E m v p) 1 :=
  by
  intro m p g _ h
  obtain h0 := all1 h
  exact ⟨_, bindS h0 <| rfl, rfl⟩

theorem load_aligned_law (E : FEnv) (v : V) : LoadLaw 1 V.lanes (fun m p => load_aligned E m v p) 1 :=
  by
  intro m p g ha h
  obtain ⟨v, h1, h2⟩ := load_law E v m p g ha h
  exact ⟨v, bindS h1 rfl, h2⟩

theorem ofPtr_law (E : FEnv) : LoadLaw 1 V.lanes (fun m p => ofPtr E m p) 1 :=
  by
  intro m p g ha h
  obtain ⟨v, h1, h2⟩ := load_law E _ m p g ha h
  exact ⟨v, bindS h1 rfl, h2⟩

theorem ofList_law (E : FEnv) : LoadLaw 1 V.lanes (fun m p => ofList E m p) 1 :=
  by
  intro m p g ha h
  obtain ⟨v, h1, h2⟩ := load_law E _ m p g ha h
  exact ⟨v, bindS h1 rfl, h2⟩

theorem store_law (E : FEnv) : StoreLaw 1 V.lanes (fun v p => store E v p) 1 :=
  storeOf (fun _ => rfl) fun v p _ => by
  dsimp only [store, V.lanes, st]
  simp only [List.cons_append, List.nil_append, Int.add_assoc, Int.reduceAdd, Int.add_zero]

theorem store_aligned_law (E : FEnv) : StoreLaw 1 V.lanes (fun v p => store_aligned E v p) 1 :=
  by
  intro m v p ha h
  obtain ⟨ws, m', h1, h2⟩ := store_law E m v p ha h
  exact ⟨ws, m', bindS h1 rfl, h2⟩

theorem store_nt_law (E : FEnv) : StoreLaw 1 V.lanes (fun v p => store_nt E v p) 1 :=
  by
  intro m v p ha h
  obtain ⟨ws, m', h1, h2⟩ := store_law E m v p ha h
  exact ⟨ws, m', bindS h1 rfl, h2⟩

theorem opStore_law (E : FEnv) : StoreLaw 1 V.lanes (fun v p => opStore E p v) 1 :=
  by
  intro m v p ha h
  obtain ⟨ws, m', h1, h2⟩ := store_law E m v p ha h
  exact ⟨ws, m', bindS h1 rfl, h2⟩

theorem gather_law (E : FEnv) (v : V) : GatherLaw 1 V.lanes (fun m mo p o => gather E m mo v p o) 1 true :=
  by
  intro m mo p o off g ha hn ho hg
  obtain o0 := all1 ho
  obtain g0 := all1 hg
  exact ⟨_, bindS o0 <| bindS g0 <| rfl, rfl⟩

theorem scatter_law (E : FEnv) : ScatterLaw 1 V.lanes (fun mo v p o => scatter E mo v p o) 1 :=
  by
  intro mo v p o off ha ho
  obtain o0 := all1 ho
  refine bindS o0 <| ?_
  rfl

theorem print_law (E : FEnv) : PrintLaw V.lanes (print E) :=
  fun _ => rfl

end LFA.SV.ScalarInt1

namespace LFA.SV.ScalarInt2

theorem len_law : LenLaw 2 V.lanes :=
  fun _ => rfl

theorem bcast_law (E : FEnv) : BcastLaw 2 V.lanes (bcast E) :=
  fun _ => rfl

theorem opAdd_law (E : FEnv) : BinLaw V.lanes (fun a b => opAdd E a b) (LaneOps.int.add E) :=
  by
  intro a b r h0
  obtain ⟨c0, r0, e0, h1, q0⟩ := map2?_cons h0
  obtain ⟨c1, r1, e1, h2, q1⟩ := map2?_cons h1
  have z := map2?_nil h2
  subst z
  subst q1
  subst q0
  exact ⟨_, bindS e0 <| bindS e1 <| rfl, rfl⟩

theorem opSub_law (E : FEnv) : BinLaw V.lanes (fun a b => opSub E a b) (LaneOps.int.sub E) :=
  by
  intro a b r h0
  obtain ⟨c0, r0, e0, h1, q0⟩ := map2?_cons h0
  obtain ⟨c1, r1, e1, h2, q1⟩ := map2?_cons h1
  have z := map2?_nil h2
  subst z
  subst q1
  subst q0
  exact ⟨_, bindS e0 <| bindS e1 <| rfl, rfl⟩

theorem opMul_law (E : FEnv) : BinLaw V.lanes (fun a b => opMul E a b) (LaneOps.int.mul E) :=
  by
  intro a b r h0
  obtain ⟨c0, r0, e0, h1, q0⟩ := map2?_cons h0
  obtain ⟨c1, r1, e1, h2, q1⟩ := map2?_cons h1
  have z := map2?_nil h2
  subst z
  subst q1
  subst q0
  exact ⟨_, bindS e0 <| bindS e1 <| rfl, rfl⟩

theorem opDiv_law (E : FEnv) : BinLaw V.lanes (fun a b => opDiv E a b) (LaneOps.int.div E) :=
  by
  intro a b r h0
  obtain ⟨c0, r0, e0, h1, q0⟩ := map2?_cons h0
  obtain ⟨c1, r1, e1, h2, q1⟩ := map2?_cons h1
  have z := map2?_nil h2
  subst z
  subst q1
  subst q0
  exact ⟨_, bindS e0 <| bindS e1 <| rfl, rfl⟩

theorem opAddAssign_law (E : FEnv) : BinLaw V.lanes (fun a b => opAddAssign E a b) (LaneOps.int.add E) :=
  by
  intro a b r h0
  obtain ⟨c0, r0, e0, h1, q0⟩ := map2?_cons h0
  obtain ⟨c1, r1, e1, h2, q1⟩ := map2?_cons h1
  have z := map2?_nil h2
  subst z
  subst q1
  subst q0
  exact ⟨_, bindS e0 <| bindS e1 <| rfl, rfl⟩

theorem opSubAssign_law (E : FEnv) : BinLaw V.lanes (fun a b => opSubAssign E a b) (LaneOps.int.sub E) :=
  by
  intro a b r h0
  obtain ⟨c0, r0, e0, h1, q0⟩ := map2?_cons h0
  obtain ⟨c1, r1, e1, h2, q1⟩ := map2?_cons h1
  have z := map2?_nil h2
  subst z
  subst q1
  subst q0
  exact ⟨_, bindS e0 <| bindS e1 <| rfl, rfl⟩

theorem opMulAssign_law (E : FEnv) : BinLaw V.lanes (fun a b => opMulAssign E a b) (LaneOps.int.mulA E) :=
  by
  intro a b r h0
  obtain ⟨c0, r0, e0, h1, q0⟩ := map2?_cons h0
  obtain ⟨c1, r1, e1, h2, q1⟩ := map2?_cons h1
  have z := map2?_nil h2
  subst z
  subst q1
  subst q0
  exact ⟨_, bindS e0 <| bindS e1 <| rfl, rfl⟩

theorem opDivAssign_law (E : FEnv) : BinLaw V.lanes (fun a b => opDivAssign E a b) (LaneOps.int.divA E) :=
  by
  intro a b r h0
  obtain ⟨c0, r0, e0, h1, q0⟩ := map2?_cons h0
  obtain ⟨c1, r1, e1, h2, q1⟩ := map2?_cons h1
  have z := map2?_nil h2
  subst z
  subst q1
  subst q0
  exact ⟨_, bindS e0 <| bindS e1 <| rfl, rfl⟩

theorem sqrtFn_law (E : FEnv) : UnLaw V.lanes (fun a => some (sqrtFn E a)) (LaneOps.int.sqrt E) :=
  unSome (fun _ => rfl)

theorem sqrt_law (E : FEnv) : UnLaw V.lanes (fun a => some (sqrt E a)) (LaneOps.int.sqrt E) :=
  unSome (fun _ => rfl)

theorem load_law (E : FEnv) (v : V) : LoadLaw 2 V.lanes (fun m p => load E m v p) 1 :=
  by
  intro m p g _ h
  obtain ⟨h0, h1⟩ := all2 h
  exact ⟨_, bindS h0 <| bindS h1 <| rfl, rfl⟩

theorem load_aligned_law (E : FEnv) (v : V) : LoadLaw 2 V.lanes (fun m p => load_aligned E m v p) 1 :=
  by
  intro m p g ha h
  obtain ⟨v, h1, h2⟩ := load_law E v m p g ha h
  exact ⟨v, bindS h1 rfl, h2⟩

theorem ofPtr_law (E : FEnv) : LoadLaw 2 V.lanes (fun m p => ofPtr E m p) 1 :=
  by
  intro m p g ha h
  obtain ⟨v, h1, h2⟩ := load_law E _ m p g ha h
  exact ⟨v, bindS h1 rfl, h2⟩

theorem ofList_law (E : FEnv) : LoadLaw 2 V.lanes (fun m p => ofList E m p) 1 :=
  by
  intro m p g ha h
  obtain ⟨v, h1, h2⟩ := load_law E _ m p g ha h
  exact ⟨v, bindS h1 rfl, h2⟩

theorem store_law (E : FEnv) : StoreLaw 2 V.lanes (fun v p => store E v p) 1 :=
  storeOf (fun _ => rfl) fun v p _ => by
  dsimp only [store, V.lanes, st]
  simp only [List.cons_append, List.nil_append, Int.add_assoc, Int.reduceAdd, Int.add_zero]

theorem store_aligned_law (E : FEnv) : StoreLaw 2 V.lanes (fun v p => store_aligned E v p) 1 :=
  by
  intro m v p ha h
  obtain ⟨ws, m', h1, h2⟩ := store_law E m v p ha h
  exact ⟨ws, m', bindS h1 rfl, h2⟩

theorem store_nt_law (E : FEnv) : StoreLaw 2 V.lanes (fun v p => store_nt E v p) 1 :=
  by
  intro m v p ha h
  obtain ⟨ws, m', h1, h2⟩ := store_law E m v p ha h
  exact ⟨ws, m', bindS h1 rfl, h2⟩

theorem opStore_law (E : FEnv) : StoreLaw 2 V.lanes (fun v p => opStore E p v) 1 :=
  by
  intro m v p ha h
  obtain ⟨ws, m', h1, h2⟩ := store_law E m v p ha h
  exact ⟨ws, m', bindS h1 rfl, h2⟩

theorem gather_law (E : FEnv) (v : V) : GatherLaw 2 V.lanes (fun m mo p o => gather E m mo v p o) 1 true :=
  by
  intro m mo p o off g ha hn ho hg
  obtain ⟨o0, o1⟩ := all2 ho
  obtain ⟨g0, g1⟩ := all2 hg
  exact ⟨_, bindS o0 <| bindS g0 <| bindS o1 <| bindS g1 <| rfl, rfl⟩

theorem scatter_law (E : FEnv) : ScatterLaw 2 V.lanes (fun mo v p o => scatter E mo v p o) 1 :=
  by
  intro mo v p o off ha ho
  obtain ⟨o0, o1⟩ := all2 ho
  refine bindS o0 <| bindS o1 <| ?_
  simp only [List.cons_append, List.nil_append]
  rfl

theorem print_law (E : FEnv) : PrintLaw V.lanes (print E) :=
  fun _ => rfl

end LFA.SV.ScalarInt2

namespace LFA.SV.ScalarInt4

theorem len_law : LenLaw 4 V.lanes :=
  fun _ => rfl

theorem bcast_law (E : FEnv) : BcastLaw 4 V.lanes (bcast E) :=
  fun _ => rfl

theorem opAdd_law (E : FEnv) : BinLaw V.lanes (fun a b => opAdd E a b) (LaneOps.int.add E) :=
  by
  intro a b r h0
  obtain ⟨c0, r0, e0, h1, q0⟩ := map2?_cons h0
  obtain ⟨c1, r1, e1, h2, q1⟩ := map2?_cons h1
  obtain ⟨c2, r2, e2, h3, q2⟩ := map2?_cons h2
  obtain ⟨c3, r3, e3, h4, q3⟩ := map2?_cons h3
  have z := map2?_nil h4
  subst z
  subst q3
  subst q2
  subst q1
  subst q0
  exact ⟨_, bindS e0 <| bindS e1 <| bindS e2 <| bindS e3 <| rfl, rfl⟩

theorem opSub_law (E : FEnv) : BinLaw V.lanes (fun a b => opSub E a b) (LaneOps.int.sub E) :=
  by
  intro a b r h0
  obtain ⟨c0, r0, e0, h1, q0⟩ := map2?_cons h0
  obtain ⟨c1, r1, e1, h2, q1⟩ := map2?_cons h1
  obtain ⟨c2, r2, e2, h3, q2⟩ := map2?_cons h2
  obtain ⟨c3, r3, e3, h4, q3⟩ := map2?_cons h3
  have z := map2?_nil h4
  subst z
  subst q3
  subst q2
  subst q1
  subst q0
  exact ⟨_, bindS e0 <| bindS e1 <| bindS e2 <| bindS e3 <| rfl, rfl⟩

theorem opMul_law (E : FEnv) : BinLaw V.lanes (fun a b => opMul E a b) (LaneOps.int.mul E) :=
  by
  intro a b r h0
  obtain ⟨c0, r0, e0, h1, q0⟩ := map2?_cons h0
  obtain ⟨c1, r1, e1, h2, q1⟩ := map2?_cons h1
  obtain ⟨c2, r2, e2, h3, q2⟩ := map2?_cons h2
  obtain ⟨c3, r3, e3, h4, q3⟩ := map2?_cons h3
  have z := map2?_nil h4
  subst z
  subst q3
  subst q2
  subst q1
  subst q0
  exact ⟨_, bindS e0 <| bindS e1 <| bindS e2 <| bindS e3 <| rfl, rfl⟩

theorem opDiv_law (E : FEnv) : BinLaw V.lanes (fun a b => opDiv E a b) (LaneOps.int.div E) :=
  by
  intro a b r h0
  obtain ⟨c0, r0, e0, h1, q0⟩ := map2?_cons h0
  obtain ⟨c1, r1, e1, h2, q1⟩ := map2?_cons h1
  obtain ⟨c2, r2, e2, h3, q2⟩ := map2?_cons h2
  obtain ⟨c3, r3, e3, h4, q3⟩ := map2?_cons h3
  have z := map2?_nil h4
  subst z
  subst q3
  subst q2
  subst q1
  subst q0
  exact ⟨_, bindS e0 <| bindS e1 <| bindS e2 <| bindS e3 <| rfl, rfl⟩

theorem opAddAssign_law (E : FEnv) : BinLaw V.lanes (fun a b => opAddAssign E a b) (LaneOps.int.add E) :=
  by
  intro a b r h0
  obtain ⟨c0, r0, e0, h1, q0⟩ := map2?_cons h0
  obtain ⟨c1, r1, e1, h2, q1⟩ := map2?_cons h1
  obtain ⟨c2, r2, e2, h3, q2⟩ := map2?_cons h2
  obtain ⟨c3, r3, e3, h4, q3⟩ := map2?_cons h3
  have z := map2?_nil h4
  subst z
  subst q3
  subst q2
  subst q1
  subst q0
  exact ⟨_, bindS e0 <| bindS e1 <| bindS e2 <| bindS e3 <| rfl, rfl⟩

theorem opSubAssign_law (E : FEnv) : BinLaw V.lanes (fun a b => opSubAssign E a b) (LaneOps.int.sub E) :=
  by
  intro a b r h0
  obtain ⟨c0, r0, e0, h1, q0⟩ := map2?_cons h0
  obtain ⟨c1, r1, e1, h2, q1⟩ := map2?_cons h1
  obtain ⟨c2, r2, e2, h3, q2⟩ := map2?_cons h2
  obtain ⟨c3, r3, e3, h4, q3⟩ := map2?_cons h3
  have z := map2?_nil h4
  subst z
  subst q3
  subst q2
  subst q1
  subst q0
  exact ⟨_, bindS e0 <| bindS e1 <| bindS e2 <| bindS e3 <| rfl, rfl⟩

theorem opMulAssign_law (E : FEnv) : BinLaw V.lanes (fun a b => opMulAssign E a b) (LaneOps.int.mulA E) :=
  by
  intro a b r h0
  obtain ⟨c0, r0, e0, h1, q0⟩ := map2?_cons h0
  obtain ⟨c1, r1, e1, h2, q1⟩ := map2?_cons h1
  obtain ⟨c2, r2, e2, h3, q2⟩ := map2?_cons h2
  obtain ⟨c3, r3, e3, h4, q3⟩ := map2?_cons h3
  have z := map2?_nil h4
  subst z
  subst q3
  subst q2
  subst q1
  subst q0
  exact ⟨_, bindS e0 <| bindS e1 <| bindS e2 <| bindS e3 <| rfl, rfl⟩

theorem opDivAssign_law (E : FEnv) : BinLaw V.lanes (fun a b => opDivAssign E a b) (LaneOps.int.divA E) :=
  by
  intro a b r h0
  obtain ⟨c0, r0, e0, h1, q0⟩ := map2?_cons h0
  obtain ⟨c1, r1, e1, h2, q1⟩ := map2?_cons h1
  obtain ⟨c2, r2, e2, h3, q2⟩ := map2?_cons h2
  obtain ⟨c3, r3, e3, h4, q3⟩ := map2?_cons h3
  have z := map2?_nil h4
  subst z
  subst q3
  subst q2
  subst q1
  subst q0
  exact ⟨_, bindS e0 <| bindS e1 <| bindS e2 <| bindS e3 <| rfl, rfl⟩

theorem sqrtFn_law (E : FEnv) : UnLaw V.lanes (fun a => some (sqrtFn E a)) (LaneOps.int.sqrt E) :=
  unSome (fun _ => rfl)

theorem sqrt_law (E : FEnv) : UnLaw V.lanes (fun a => some (sqrt E a)) (LaneOps.int.sqrt E) :=
  unSome (fun _ => rfl)

theorem load_law (E : FEnv) (v : V) : LoadLaw 4 V.lanes (fun m p => load E m v p) 1 :=
  by
  intro m p g _ h
  obtain ⟨h0, h1, h2, h3⟩ := all4 h
  exact ⟨_, bindS h0 <| bindS h1 <| bindS h2 <| bindS h3 <| rfl, rfl⟩

theorem load_aligned_law (E : FEnv) (v : V) : LoadLaw 4 V.lanes (fun m p => load_aligned E m v p) 1 :=
  by
  intro m p g ha h
  obtain ⟨v, h1, h2⟩ := load_law E v m p g ha h
  exact ⟨v, bindS h1 rfl, h2⟩

theorem ofPtr_law (E : FEnv) : LoadLaw 4 V.lanes (fun m p => ofPtr E m p) 1 :=
  by
  intro m p g ha h
  obtain ⟨v, h1, h2⟩ := load_law E _ m p g ha h
  exact ⟨v, bindS h1 rfl, h2⟩

theorem ofList_law (E : FEnv) : LoadLaw 4 V.lanes (fun m p => ofList E m p) 1 :=
  by
  intro m p g ha h
  obtain ⟨v, h1, h2⟩ := load_law E _ m p g ha h
  exact ⟨v, bindS h1 rfl, h2⟩

theorem store_law (E : FEnv) : StoreLaw 4 V.lanes (fun v p => store E v p) 1 :=
  storeOf (fun _ => rfl) fun v p _ => by
  dsimp only [store, V.lanes, st]
  simp only [List.cons_append, List.nil_append, Int.add_assoc, Int.reduceAdd, Int.add_zero]

theorem store_aligned_law (E : FEnv) : StoreLaw 4 V.lanes (fun v p => store_aligned E v p) 1 :=
  by
  intro m v p ha h
  obtain ⟨ws, m', h1, h2⟩ := store_law E m v p ha h
  exact ⟨ws, m', bindS h1 rfl, h2⟩

theorem store_nt_law (E : FEnv) : StoreLaw 4 V.lanes (fun v p => store_nt E v p) 1 :=
  by
  intro m v p ha h
  obtain ⟨ws, m', h1, h2⟩ := store_law E m v p ha h
  exact ⟨ws, m', bindS h1 rfl, h2⟩

theorem opStore_law (E : FEnv) : StoreLaw 4 V.lanes (fun v p => opStore E p v) 1 :=
  by
  intro m v p ha h
  obtain ⟨ws, m', h1, h2⟩ := store_law E m v p ha h
  exact ⟨ws, m', bindS h1 rfl, h2⟩

theorem gather_law (E : FEnv) (v : V) : GatherLaw 4 V.lanes (fun m mo p o => gather E m mo v p o) 1 true :=
  by
  intro m mo p o off g ha hn ho hg
  obtain ⟨o0, o1, o2, o3⟩ := all4 ho
  obtain ⟨g0, g1, g2, g3⟩ := all4 hg
  exact ⟨_, bindS o0 <| bindS g0 <| bindS o1 <| bindS g1 <| bindS o2 <| bindS g2 <| bindS o3 <| bindS g3 <| rfl, rfl⟩

theorem scatter_law (E : FEnv) : ScatterLaw 4 V.lanes (fun mo v p o => scatter E mo v p o) 1 :=
  by
  intro mo v p o off ha ho
  obtain ⟨o0, o1, o2, o3⟩ := all4 ho
  refine bindS o0 <| bindS o1 <| bindS o2 <| bindS o3 <| ?_
  simp only [List.cons_append, List.nil_append]
  rfl

theorem print_law (E : FEnv) : PrintLaw V.lanes (print E) :=
  fun _ => rfl

end LFA.SV.ScalarInt4

namespace LFA.SV.ScalarInt8

theorem len_law : LenLaw 8 V.lanes :=
  fun _ => rfl

theorem bcast_law (E : FEnv) : BcastLaw 8 V.lanes (bcast E) :=
  fun _ => rfl

theorem opAdd_law (E : FEnv) : BinLaw V.lanes (fun a b => opAdd E a b) (LaneOps.int.add E) :=
  by
  intro a b r h0
  obtain ⟨c0, r0, e0, h1, q0⟩ := map2?_cons h0
  obtain ⟨c1, r1, e1, h2, q1⟩ := map2?_cons h1
  obtain ⟨c2, r2, e2, h3, q2⟩ := map2?_cons h2
  obtain ⟨c3, r3, e3, h4, q3⟩ := map2?_cons h3
  obtain ⟨c4, r4, e4, h5, q4⟩ := map2?_cons h4
  obtain ⟨c5, r5, e5, h6, q5⟩ := map2?_cons h5
  obtain ⟨c6, r6, e6, h7, q6⟩ := map2?_cons h6
  obtain ⟨c7, r7, e7, h8, q7⟩ := map2?_cons h7
  have z := map2?_nil h8
  subst z
  subst q7
  subst q6
  subst q5
  subst q4
  subst q3
  subst q2
  subst q1
  subst q0
  exact ⟨_, bindS e0 <| bindS e1 <| bindS e2 <| bindS e3 <| bindS e4 <| bindS e5 <| bindS e6 <| bindS e7 <| rfl, rfl⟩

theorem opSub_law (E : FEnv) : BinLaw V.lanes (fun a b => opSub E a b) (LaneOps.int.sub E) :=
  by
  intro a b r h0
  obtain ⟨c0, r0, e0, h1, q0⟩ := map2?_cons h0
  obtain ⟨c1, r1, e1, h2, q1⟩ := map2?_cons h1
  obtain ⟨c2, r2, e2, h3, q2⟩ := map2?_cons h2
  obtain ⟨c3, r3, e3, h4, q3⟩ := map2?_cons h3
  obtain ⟨c4, r4, e4, h5, q4⟩ := map2?_cons h4
  obtain ⟨c5, r5, e5, h6, q5⟩ := map2?_cons h5
  obtain ⟨c6, r6, e6, h7, q6⟩ := map2?_cons h6
  obtain ⟨c7, r7, e7, h8, q7⟩ := map2?_cons h7
  have z := map2?_nil h8
  subst z
  subst q7
  subst q6
  subst q5
  subst q4
  subst q3
  subst q2
  subst q1
  subst q0
  exact ⟨_, bindS e0 <| bindS e1 <| bindS e2 <| bindS e3 <| bindS e4 <| bindS e5 <| bindS e6 <| bindS e7 <| rfl, rfl⟩

theorem opMul_law (E : FEnv) : BinLaw V.lanes (fun a b => opMul E a b) (LaneOps.int.mul E) :=
  by
  intro a b r h0
  obtain ⟨c0, r0, e0, h1, q0⟩ := map2?_cons h0
  obtain ⟨c1, r1, e1, h2, q1⟩ := map2?_cons h1
  obtain ⟨c2, r2, e2, h3, q2⟩ := map2?_cons h2
  obtain ⟨c3, r3, e3, h4, q3⟩ := map2?_cons h3
  obtain ⟨c4, r4, e4, h5, q4⟩ := map2?_cons h4
  obtain ⟨c5, r5, e5, h6, q5⟩ := map2?_cons h5
  obtain ⟨c6, r6, e6, h7, q6⟩ := map2?_cons h6
  obtain ⟨c7, r7, e7, h8, q7⟩ := map2?_cons h7
  have z := map2?_nil h8
  subst z
  subst q7
  subst q6
  subst q5
  subst q4
  subst q3
  subst q2
  subst q1
  subst q0
  exact ⟨_, bindS e0 <| bindS e1 <| bindS e2 <| bindS e3 <| bindS e4 <| bindS e5 <| bindS e6 <| bindS e7 <| rfl, rfl⟩

theorem opDiv_law (E : FEnv) : BinLaw V.lanes (fun a b => opDiv E a b) (LaneOps.int.div E) :=
  by
  intro a b r h0
  obtain ⟨c0, r0, e0, h1, q0⟩ := map2?_cons h0
  obtain ⟨c1, r1, e1, h2, q1⟩ := map2?_cons h1
  obtain ⟨c2, r2, e2, h3, q2⟩ := map2?_cons h2
  obtain ⟨c3, r3, e3, h4, q3⟩ := map2?_cons h3
  obtain ⟨c4, r4, e4, h5, q4⟩ := map2?_cons h4
  obtain ⟨c5, r5, e5, h6, q5⟩ := map2?_cons h5
  obtain ⟨c6, r6, e6, h7, q6⟩ := map2?_cons h6
  obtain ⟨c7, r7, e7, h8, q7⟩ := map2?_cons h7
  have z := map2?_nil h8
  subst z
  subst q7
  subst q6
  subst q5
  subst q4
  subst q3
  subst q2
  subst q1
  subst q0
  exact ⟨_, bindS e0 <| bindS e1 <| bindS e2 <| bindS e3 <| bindS e4 <| bindS e5 <| bindS e6 <| bindS e7 <| rfl, rfl⟩

theorem opAddAssign_law (E : FEnv) : BinLaw V.lanes (fun a b => opAddAssign E a b) (LaneOps.int.add E) :=
  by
  intro a b r h0
  obtain ⟨c0, r0, e0, h1, q0⟩ := map2?_cons h0
  obtain ⟨c1, r1, e1, h2, q1⟩ := map2?_cons h1
  obtain ⟨c2, r2, e2, h3, q2⟩ := map2?_cons h2
  obtain ⟨c3, r3, e3, h4, q3⟩ := map2?_cons h3
  obtain ⟨c4, r4, e4, h5, q4⟩ := map2?_cons h4
  obtain ⟨c5, r5, e5, h6, q5⟩ := map2?_cons h5
  obtain ⟨c6, r6, e6, h7, q6⟩ := map2?_cons h6
  obtain ⟨c7, r7, e7, h8, q7⟩ := map2?_cons h7
  have z := map2?_nil h8
  subst z
  subst q7
  subst q6
  subst q5
  subst q4
  subst q3
  subst q2
  subst q1
  subst q0
  exact ⟨_, bindS e0 <| bindS e1 <| bindS e2 <| bindS e3 <| bindS e4 <| bindS e5 <| bindS e6 <| bindS e7 <| rfl, rfl⟩

theorem opSubAssign_law (E : FEnv) : BinLaw V.lanes (fun a b => opSubAssign E a b) (LaneOps.int.sub E) :=
  by
  intro a b r h0
  obtain ⟨c0, r0, e0, h1, q0⟩ := map2?_cons h0
  obtain ⟨c1, r1, e1, h2, q1⟩ := map2?_cons h1
  obtain ⟨c2, r2, e2, h3, q2⟩ := map2?_cons h2
  obtain ⟨c3, r3, e3, h4, q3⟩ := map2?_cons h3
  obtain ⟨c4, r4, e4, h5, q4⟩ := map2?_cons h4
  obtain ⟨c5, r5, e5, h6, q5⟩ := map2?_cons h5
  obtain ⟨c6, r6, e6, h7, q6⟩ := map2?_cons h6
  obtain ⟨c7, r7, e7, h8, q7⟩ := map2?_cons h7
  have z := map2?_nil h8
  subst z
  subst q7
  subst q6
  subst q5
  subst q4
  subst q3
  subst q2
  subst q1
  subst q0
  exact ⟨_, bindS e0 <| bindS e1 <| bindS e2 <| bindS e3 <| bindS e4 <| bindS e5 <| bindS e6 <| bindS e7 <| rfl, rfl⟩

theorem opMulAssign_law (E : FEnv) : BinLaw V.lanes (fun a b => opMulAssign E a b) (LaneOps.int.mulA E) :=
  by
  intro a b r h0
  obtain ⟨c0, r0, e0, h1, q0⟩ := map2?_cons h0
  obtain ⟨c1, r1, e1, h2, q1⟩ := map2?_cons h1
  obtain ⟨c2, r2, e2, h3, q2⟩ := map2?_cons h2
  obtain ⟨c3, r3, e3, h4, q3⟩ := map2?_cons h3
  obtain ⟨c4, r4, e4, h5, q4⟩ := map2?_cons h4
  obtain ⟨c5, r5, e5, h6, q5⟩ := map2?_cons h5
  obtain ⟨c6, r6, e6, h7, q6⟩ := map2?_cons h6
  obtain ⟨c7, r7, e7, h8, q7⟩ := map2?_cons h7
  have z := map2?_nil h8
  subst z
  subst q7
  subst q6
  subst q5
  subst q4
  subst q3
  subst q2
  subst q1
  subst q0
  exact ⟨_, bindS e0 <| bindS e1 <| bindS e2 <| bindS e3 <| bindS e4 <| bindS e5 <| bindS e6 <| bindS e7 <| rfl, rfl⟩

theorem opDivAssign_law (E : FEnv) : BinLaw V.lanes (fun a b => opDivAssign E a b) (LaneOps.int.divA E) :=
  by
  intro a b r h0
  obtain ⟨c0, r0, e0, h1, q0⟩ := map2?_cons h0
  obtain ⟨c1, r1, e1, h2, q1⟩ := map2?_cons h1
  obtain ⟨c2, r2, e2, h3, q2⟩ := map2?_cons h2
  obtain ⟨c3, r3, e3, h4, q3⟩ := map2?_cons h3
  obtain ⟨c4, r4, e4, h5, q4⟩ := map2?_cons h4
  obtain ⟨c5, r5, e5, h6, q5⟩ := map2?_cons h5
  obtain ⟨c6, r6, e6, h7, q6⟩ := map2?_cons h6
  obtain ⟨c7, r7, e7, h8, q7⟩ := map2?_cons h7
  have z := map2?_nil h8
  subst z
  subst q7
  subst q6
  subst q5
  subst q4
  subst q3
  subst q2
  subst q1
  subst q0
  exact ⟨_, bindS e0 <| bindS e1 <| bindS e2 <| bindS e3 <| bindS e4 <| bindS e5 <| bindS e6 <| bindS e7 <| rfl, rfl⟩

theorem sqrtFn_law (E : FEnv) : UnLaw V.lanes (fun a => some (sqrtFn E a)) (LaneOps.int.sqrt E) :=
  unSome (fun _ => rfl)

theorem sqrt_law (E : FEnv) : UnLaw V.lanes (fun a => some (sqrt E a)) (LaneOps.int.sqrt E) :=
  unSome (fun _ => rfl)

theorem load_law (E : FEnv) (v : V) : LoadLaw 8 V.lanes (fun m p => load E m v p) 1 :=
  by
  intro m p g _ h
  obtain ⟨h0, h1, h2, h3, h4, h5, h6, h7⟩ := all8 h
  exact ⟨_, bindS h0 <| bindS h1 <| bindS h2 <| bindS h3 <| bindS h4 <| bindS h5 <| bindS h6 <| bindS h7 <| rfl, rfl⟩

theorem load_aligned_law (E : FEnv) (v : V) : LoadLaw 8 V.lanes (fun m p => load_aligned E m v p) 1 :=
  by
  intro m p g ha h
  obtain ⟨v, h1, h2⟩ := load_law E v m p g ha h
  exact ⟨v, bindS h1 rfl, h2⟩

theorem ofPtr_law (E : FEnv) : LoadLaw 8 V.lanes (fun m p => ofPtr E m p) 1 :=
  by
  intro m p g ha h
  obtain ⟨v, h1, h2⟩ := load_law E _ m p g ha h
  exact ⟨v, bindS h1 rfl, h2⟩

theorem ofList_law (E : FEnv) : LoadLaw 8 V.lanes (fun m p => ofList E m p) 1 :=
  by
  intro m p g ha h
  obtain ⟨v, h1, h2⟩ := load_law E _ m p g ha h
  exact ⟨v, bindS h1 rfl, h2⟩

theorem store_law (E : FEnv) : StoreLaw 8 V.lanes (fun v p => store E v p) 1 :=
  storeOf (fun _ => rfl) fun v p _ => by
  dsimp only [store, V.lanes, st]
  simp only [List.cons_append, List.nil_append, Int.add_assoc, Int.reduceAdd, Int.add_zero]

theorem store_aligned_law (E : FEnv) : StoreLaw 8 V.lanes (fun v p => store_aligned E v p) 1 :=
  by
  intro m v p ha h
  obtain ⟨ws, m', h1, h2⟩ := store_law E m v p ha h
  exact ⟨ws, m', bindS h1 rfl, h2⟩

theorem store_nt_law (E : FEnv) : StoreLaw 8 V.lanes (fun v p => store_nt E v p) 1 :=
  by
  intro m v p ha h
  obtain ⟨ws, m', h1, h2⟩ := store_law E m v p ha h
  exact ⟨ws, m', bindS h1 rfl, h2⟩

theorem opStore_law (E : FEnv) : StoreLaw 8 V.lanes (fun v p => opStore E p v) 1 :=
  by
  intro m v p ha h
  obtain ⟨ws, m', h1, h2⟩ := store_law E m v p ha h
  exact ⟨ws, m', bindS h1 rfl, h2⟩

theorem gather_law (E : FEnv) (v : V) : GatherLaw 8 V.lanes (fun m mo p o => gather E m mo v p o) 1 true :=
  by
  intro m mo p o off g ha hn ho hg
  obtain ⟨o0, o1, o2, o3, o4, o5, o6, o7⟩ := all8 ho
  obtain ⟨g0, g1, g2, g3, g4, g5, g6, g7⟩ := all8 hg
  exact ⟨_, bindS o0 <| bindS g0 <| bindS o1 <| bindS g1 <| bindS o2 <| bindS g2 <| bindS o3 <| bindS g3 <| bindS o4 <| bindS g4
      <| bindS o5 <| bindS g5 <| bindS o6 <| bindS g6 <| bindS o7 <| bindS g7 <| rfl, rfl⟩

theorem scatter_law (E : FEnv) : ScatterLaw 8 V.lanes (fun mo v p o => scatter E mo v p o) 1 :=
  by
  intro mo v p o off ha ho
  obtain ⟨o0, o1, o2, o3, o4, o5, o6, o7⟩ := all8 ho
  refine bindS o0 <| bindS o1 <| bindS o2 <| bindS o3 <| bindS o4 <| bindS o5 <| bindS o6 <| bindS o7 <| ?_
  simp only [List.cons_append, List.nil_append]
  rfl

theorem print_law (E : FEnv) : PrintLaw V.lanes (print E) :=
  fun _ => rfl

end LFA.SV.ScalarInt8

namespace LFA.SV.ScalarInt16

theorem len_law : LenLaw 16 V.lanes :=
  fun _ => rfl

theorem bcast_law (E : FEnv) : BcastLaw 16 V.lanes (bcast E) :=
  fun _ => rfl

theorem opAdd_law (E : FEnv) : BinLaw V.lanes (fun a b => opAdd E a b) (LaneOps.int.add E) :=
  by
  intro a b r h0
  obtain ⟨c0, r0, e0, h1, q0⟩ := map2?_cons h0
  obtain ⟨c1, r1, e1, h2, q1⟩ := map2?_cons h1
  obtain ⟨c2, r2, e2, h3, q2⟩ := map2?_cons h2
  obtain ⟨c3, r3, e3, h4, q3⟩ := map2?_cons h3
  obtain ⟨c4, r4, e4, h5, q4⟩ := map2?_cons h4
  obtain ⟨c5, r5, e5, h6, q5⟩ := map2?_cons h5
  obtain ⟨c6, r6, e6, h7, q6⟩ := map2?_cons h6
  obtain ⟨c7, r7, e7, h8, q7⟩ := map2?_cons h7
  obtain ⟨c8, r8, e8, h9, q8⟩ := map2?_cons h8
  obtain ⟨c9, r9, e9, h10, q9⟩ := map2?_cons h9
  obtain ⟨c10, r10, e10, h11, q10⟩ := map2?_cons h10
  obtain ⟨c11, r11, e11, h12, q11⟩ := map2?_cons h11
  obtain ⟨c12, r12, e12, h13, q12⟩ := map2?_cons h12
  obtain ⟨c13, r13, e13, h14, q13⟩ := map2?_cons h13
  obtain ⟨c14, r14, e14, h15, q14⟩ := map2?_cons h14
  obtain ⟨c15, r15, e15, h16, q15⟩ := map2?_cons h15
  have z := map2?_nil h16
  subst z
  subst q15
  subst q14
  subst q13
  subst q12
  subst q11
  subst q10
  subst q9
  subst q8
  subst q7
  subst q6
  subst q5
  subst q4
  subst q3
  subst q2
  subst q1
  subst q0
  exact ⟨_, bindS e0 <| bindS e1 <| bindS e2 <| bindS e3 <| bindS e4 <| bindS e5 <| bindS e6 <| bindS e7 <| bindS e8 <| bindS e9
      <| bindS e10 <| bindS e11 <| bindS e12 <| bindS e13 <| bindS e14 <| bindS e15 <| rfl, rfl⟩

theorem opSub_law (E : FEnv) : BinLaw V.lanes (fun a b => opSub E a b) (LaneOps.int.sub E) :=
  by
  intro a b r h0
  obtain ⟨c0, r0, e0, h1, q0⟩ := map2?_cons h0
  obtain ⟨c1, r1, e1, h2, q1⟩ := map2?_cons h1
  obtain ⟨c2, r2, e2, h3, q2⟩ := map2?_cons h2
  obtain ⟨c3, r3, e3, h4, q3⟩ := map2?_cons h3
  obtain ⟨c4, r4, e4, h5, q4⟩ := map2?_cons h4
  obtain ⟨c5, r5, e5, h6, q5⟩ := map2?_cons h5
  obtain ⟨c6, r6, e6, h7, q6⟩ := map2?_cons h6
  obtain ⟨c7, r7, e7, h8, q7⟩ := map2?_cons h7
  obtain ⟨c8, r8, e8, h9, q8⟩ := map2?_cons h8
  obtain ⟨c9, r9, e9, h10, q9⟩ := map2?_cons h9
  obtain ⟨c10, r10, e10, h11, q10⟩ := map2?_cons h10
  obtain ⟨c11, r11, e11, h12, q11⟩ := map2?_cons h11
  obtain ⟨c12, r12, e12, h13, q12⟩ := map2?_cons h12
  obtain ⟨c13, r13, e13, h14, q13⟩ := map2?_cons h13
  obtain ⟨c14, r14, e14, h15, q14⟩ := map2?_cons h14
  obtain ⟨c15, r15, e15, h16, q15⟩ := map2?_cons h15
  have z := map2?_nil h16
  subst z
  subst q15
  subst q14
  subst q13
  subst q12
  subst q11
  subst q10
  subst q9
  subst q8
  subst q7
  subst q6
  subst q5
  subst q4
  subst q3
  subst q2
  subst q1
  subst q0
  exact ⟨_, bindS e0 <| bindS e1 <| bindS e2 <| bindS e3 <| bindS e4 <| bindS e5 <| bindS e6 <| bindS e7 <| bindS e8 <| bindS e9
      <| bindS e10 <| bindS e11 <| bindS e12 <| bindS e13 <| bindS e14 <| bindS e15 <| rfl, rfl⟩

theorem opMul_law (E : FEnv) : BinLaw V.lanes (fun a b => opMul E a b) (LaneOps.int.mul E) :=
  by
  intro a b r h0
  obtain ⟨c0, r0, e0, h1, q0⟩ := map2?_cons h0
  obtain ⟨c1, r1, e1, h2, q1⟩ := map2?_cons h1
  obtain ⟨c2, r2, e2, h3, q2⟩ := map2?_cons h2
  obtain ⟨c3, r3, e3, h4, q3⟩ := map2?_cons h3
  obtain ⟨c4, r4, e4, h5, q4⟩ := map2?_cons h4
  obtain ⟨c5, r5, e5, h6, q5⟩ := map2?_cons h5
  obtain ⟨c6, r6, e6, h7, q6⟩ := map2?_cons h6
  obtain ⟨c7, r7, e7, h8, q7⟩ := map2?_cons h7
  obtain ⟨c8, r8, e8, h9, q8⟩ := map2?_cons h8
  obtain ⟨c9, r9, e9, h10, q9⟩ := map2?_cons h9
  obtain ⟨c10, r10, e10, h11, q10⟩ := map2?_cons h10
  obtain ⟨c11, r11, e11, h12, q11⟩ := map2?_cons h11
  obtain ⟨c12, r12, e12, h13, q12⟩ := map2?_cons h12
  obtain ⟨c13, r13, e13, h14, q13⟩ := map2?_cons h13
  obtain ⟨c14, r14, e14, h15, q14⟩ := map2?_cons h14
  obtain ⟨c15, r15, e15, h16, q15⟩ := map2?_cons h15
  have z := map2?_nil h16
  subst z
  subst q15
  subst q14
  subst q13
  subst q12
  subst q11
  subst q10
  subst q9
  subst q8
  subst q7
  subst q6
  subst q5
  subst q4
  subst q3
  subst q2
  subst q1
  subst q0
  exact ⟨_, bindS e0 <| bindS e1 <| bindS e2 <| bindS e3 <| bindS e4 <| bindS e5 <| bindS e6 <| bindS e7 <| bindS e8 <| bindS e9
      <| bindS e10 <| bindS e11 <| bindS e12 <| bindS e13 <| bindS e14 <| bindS e15 <| rfl, rfl⟩

theorem opDiv_law (E : FEnv) : BinLaw V.lanes (fun a b => opDiv E a b) (LaneOps.int.div E) :=
  by
  intro a b r h0
  obtain ⟨c0, r0, e0, h1, q0⟩ := map2?_cons h0
  obtain ⟨c1, r1, e1, h2, q1⟩ := map2?_cons h1
  obtain ⟨c2, r2, e2, h3, q2⟩ := map2?_cons h2
  obtain ⟨c3, r3, e3, h4, q3⟩ := map2?_cons h3
  obtain ⟨c4, r4, e4, h5, q4⟩ := map2?_cons h4
  obtain ⟨c5, r5, e5, h6, q5⟩ := map2?_cons h5
  obtain ⟨c6, r6, e6, h7, q6⟩ := map2?_cons h6
  obtain ⟨c7, r7, e7, h8, q7⟩ := map2?_cons h7
  obtain ⟨c8, r8, e8, h9, q8⟩ := map2?_cons h8
  obtain ⟨c9, r9, e9, h10, q9⟩ := map2?_cons h9
  obtain ⟨c10, r10, e10, h11, q10⟩ := map2?_cons h10
  obtain ⟨c11, r11, e11, h12, q11⟩ := map2?_cons h11
  obtain ⟨c12, r12, e12, h13, q12⟩ := map2?_cons h12
  obtain ⟨c13, r13, e13, h14, q13⟩ := map2?_cons h13
  obtain ⟨c14, r14, e14, h15, q14⟩ := map2?_cons h14
  obtain ⟨c15, r15, e15, h16, q15⟩ := map2?_cons h15
  have z := map2?_nil h16
  subst z
  subst q15
  subst q14
  subst q13
  subst q12
  subst q11
  subst q10
  subst q9
  subst q8
  subst q7
  subst q6
  subst q5
  subst q4
  subst q3
  subst q2
  subst q1
  subst q0
  exact ⟨_, bindS e0 <| bindS e1 <| bindS e2 <| bindS e3 <| bindS e4 <| bindS e5 <| bindS e6 <| bindS e7 <| bindS e8 <| bindS e9
      <| bindS e10 <| bindS e11 <| bindS e12 <| bindS e13 <| bindS e14 <| bindS e15 <| rfl, rfl⟩

theorem opAddAssign_law (E : FEnv) : BinLaw V.lanes (fun a b => opAddAssign E a b) (LaneOps.int.add E) :=
  by
  intro a b r h0
  obtain ⟨c0, r0, e0, h1, q0⟩ := map2?_cons h0
  obtain ⟨c1, r1, e1, h2, q1⟩ := map2?_cons h1
  obtain ⟨c2, r2, e2, h3, q2⟩ := map2?_cons h2
  obtain ⟨c3, r3, e3, h4, q3⟩ := map2?_cons h3
  obtain ⟨c4, r4, e4, h5, q4⟩ := map2?_cons h4
  obtain ⟨c5, r5, e5, h6, q5⟩ := map2?_cons h5
  obtain ⟨c6, r6, e6, h7, q6⟩ := map2?_cons h6
  obtain ⟨c7, r7, e7, h8, q7⟩ := map2?_cons h7
  obtain ⟨c8, r8, e8, h9, q8⟩ := map2?_cons h8
  obtain ⟨c9, r9, e9, h10, q9⟩ := map2?_cons h9
  obtain ⟨c10, r10, e10, h11, q10⟩ := map2?_cons h10
  obtain ⟨c11, r11, e11, h12, q11⟩ := map2?_cons h11
  obtain ⟨c12, r12, e12, h13, q12⟩ := map2?_cons h12
  obtain ⟨c13, r13, e13, h14, q13⟩ := map2?_cons h13
  obtain ⟨c14, r14, e14, h15, q14⟩ := map2?_cons h14
  obtain ⟨c15, r15, e15, h16, q15⟩ := map2?_cons h15
  have z := map2?_nil h16
  subst z
  subst q15
  subst q14
  subst q13
  subst q12
  subst q11
  subst q10
  subst q9
  subst q8
  subst q7
  subst q6
  subst q5
  subst q4
  subst q3
  subst q2
  subst q1
  subst q0
  exact ⟨_, bindS e0 <| bindS e1 <| bindS e2 <| bindS e3 <| bindS e4 <| bindS e5 <| bindS e6 <| bindS e7 <| bindS e8 <| bindS e9
      <| bindS e10 <| bindS e11 <| bindS e12 <| bindS e13 <| bindS e14 <| bindS e15 <| rfl, rfl⟩

theorem opSubAssign_law (E : FEnv) : BinLaw V.lanes (fun a b => opSubAssign E a b) (LaneOps.int.sub E) :=
  by
  intro a b r h0
  obtain ⟨c0, r0, e0, h1, q0⟩ := map2?_cons h0
  obtain ⟨c1, r1, e1, h2, q1⟩ := map2?_cons h1
  obtain ⟨c2, r2, e2, h3, q2⟩ := map2?_cons h2
  obtain ⟨c3, r3, e3, h4, q3⟩ := map2?_cons h3
  obtain ⟨c4, r4, e4, h5, q4⟩ := map2?_cons h4
  obtain ⟨c5, r5, e5, h6, q5⟩ := map2?_cons h5
  obtain ⟨c6, r6, e6, h7, q6⟩ := map2?_cons h6
  obtain ⟨c7, r7, e7, h8, q7⟩ := map2?_cons h7
  obtain ⟨c8, r8, e8, h9, q8⟩ := map2?_cons h8
  obtain ⟨c9, r9, e9, h10, q9⟩ := map2?_cons h9
  obtain ⟨c10, r10, e10, h11, q10⟩ := map2?_cons h10
  obtain ⟨c11, r11, e11, h12, q11⟩ := map2?_cons h11
  obtain ⟨c12, r12, e12, h13, q12⟩ := map2?_cons h12
  obtain ⟨c13, r13, e13, h14, q13⟩ := map2?_cons h13
  obtain ⟨c14, r14, e14, h15, q14⟩ := map2?_cons h14
  obtain ⟨c15, r15, e15, h16, q15⟩ := map2?_cons h15
  have z := map2?_nil h16
  subst z
  subst q15
  subst q14
  subst q13
  subst q12
  subst q11
  subst q10
  subst q9
  subst q8
  subst q7
  subst q6
  subst q5
  subst q4
  subst q3
  subst q2
  subst q1
  subst q0
  exact ⟨_, bindS e0 <| bindS e1 <| bindS e2 <| bindS e3 <| bindS e4 <| bindS e5 <| bindS e6 <| bindS e7 <| bindS e8 <| bindS e9
      <| bindS e10 <| bindS e11 <| bindS e12 <| bindS e13 <| bindS e14 <| bindS e15 <| rfl, rfl⟩

theorem opMulAssign_law (E : FEnv) : BinLaw V.lanes (fun a b => opMulAssign E a b) (LaneOps.int.mulA E) :=
  by
  intro a b r h0
  obtain ⟨c0, r0, e0, h1, q0⟩ := map2?_cons h0
  obtain ⟨c1, r1, e1, h2, q1⟩ := map2?_cons h1
  obtain ⟨c2, r2, e2, h3, q2⟩ := map2?_cons h2
  obtain ⟨c3, r3, e3, h4, q3⟩ := map2?_cons h3
  obtain ⟨c4, r4, e4, h5, q4⟩ := map2?_cons h4
  obtain ⟨c5, r5, e5, h6, q5⟩ := map2?_cons h5
  obtain ⟨c6, r6, e6, h7, q6⟩ := map2?_cons h6
  obtain ⟨c7, r7, e7, h8, q7⟩ := map2?_cons h7
  obtain ⟨c8, r8, e8, h9, q8⟩ := map2?_cons h8
  obtain ⟨c9, r9, e9, h10, q9⟩ := map2?_cons h9
  obtain ⟨c10, r10, e10, h11, q10⟩ := map2?_cons h10
  obtain ⟨c11, r11, e11, h12, q11⟩ := map2?_cons h11
  obtain ⟨c12, r12, e12, h13, q12⟩ := map2?_cons h12
  obtain ⟨c13, r13, e13, h14, q13⟩ := map2?_cons h13
  obtain ⟨c14, r14, e14, h15, q14⟩ := map2?_cons h14
  obtain ⟨c15, r15, e15, h16, q15⟩ := map2?_cons h15
  have z := map2?_nil h16
  subst z
  subst q15
  subst q14
  subst q13
  subst q12
  subst q11
  subst q10
  subst q9
  subst q8
  subst q7
  subst q6
  subst q5
  subst q4
  subst q3
  subst q2
  subst q1
  subst q0
  exact ⟨_, bindS e0 <| bindS e1 <| bindS e2 <| bindS e3 <| bindS e4 <| bindS e5 <| bindS e6 <| bindS e7 <| bindS e8 <| bindS e9
      <| bindS e10 <| bindS e11 <| bindS e12 <| bindS e13 <| bindS e14 <| bindS e15 <| rfl, rfl⟩

theorem opDivAssign_law (E : FEnv) : BinLaw V.lanes (fun a b => opDivAssign E a b) (LaneOps.int.divA E) :=
  by
  intro a b r h0
  obtain ⟨c0, r0, e0, h1, q0⟩ := map2?_cons h0
  obtain ⟨c1, r1, e1, h2, q1⟩ := map2?_cons h1
  obtain ⟨c2, r2, e2, h3, q2⟩ := map2?_cons h2
  obtain ⟨c3, r3, e3, h4, q3⟩ := map2?_cons h3
  obtain ⟨c4, r4, e4, h5, q4⟩ := map2?_cons h4
  obtain ⟨c5, r5, e5, h6, q5⟩ := map2?_cons h5
  obtain ⟨c6, r6, e6, h7, q6⟩ := map2?_cons h6
  obtain ⟨c7, r7, e7, h8, q7⟩ := map2?_cons h7
  obtain ⟨c8, r8, e8, h9, q8⟩ := map2?_cons h8
  obtain ⟨c9, r9, e9, h10, q9⟩ := map2?_cons h9
  obtain ⟨c10, r10, e10, h11, q10⟩ := map2?_cons h10
  obtain ⟨c11, r11, e11, h12, q11⟩ := map2?_cons h11
  obtain ⟨c12, r12, e12, h13, q12⟩ := map2?_cons h12
  obtain ⟨c13, r13, e13, h14, q13⟩ := map2?_cons h13
  obtain ⟨c14, r14, e14, h15, q14⟩ := map2?_cons h14
  obtain ⟨c15, r15, e15, h16, q15⟩ := map2?_cons h15
  have z := map2?_nil h16
  subst z
  subst q15
  subst q14
  subst q13
  subst q12
  subst q11
  subst q10
  subst q9
  subst q8
  subst q7
  subst q6
  subst q5
  subst q4
  subst q3
  subst q2
  subst q1
  subst q0
  exact ⟨_, bindS e0 <| bindS e1 <| bindS e2 <| bindS e3 <| bindS e4 <| bindS e5 <| bindS e6 <| bindS e7 <| bindS e8 <| bindS e9
      <| bindS e10 <| bindS e11 <| bindS e12 <| bindS e13 <| bindS e14 <| bindS e15 <| rfl, rfl⟩

theorem sqrtFn_law (E : FEnv) : UnLaw V.lanes (fun a => some (sqrtFn E a)) (LaneOps.int.sqrt E) :=
  unSome (fun _ => rfl)

theorem sqrt_law (E : FEnv) : UnLaw V.lanes (fun a => some (sqrt E a)) (LaneOps.int.sqrt E) :=
  unSome (fun _ => rfl)

theorem load_law (E : FEnv) (v : V) : LoadLaw 16 V.lanes (fun m p => load E m v p) 1 :=
  by
  intro m p g _ h
  obtain ⟨h0, h1, h2, h3, h4, h5, h6, h7, h8, h9, h10, h11, h12, h13, h14, h15⟩ := all16 h
  exact ⟨_, bindS h0 <| bindS h1 <| bindS h2 <| bindS h3 <| bindS h4 <| bindS h5 <| bindS h6 <| bindS h7 <| bindS h8 <| bindS h9
      <| bindS h10 <| bindS h11 <| bindS h12 <| bindS h13 <| bindS h14 <| bindS h15 <| rfl, rfl⟩

theorem load_aligned_law (E : FEnv) (v : V) : LoadLaw 16 V.lanes (fun m p => load_aligned E m v p) 1 :=
  by
  intro m p g ha h
  obtain ⟨v, h1, h2⟩ := load_law E v m p g ha h
  exact ⟨v, bindS h1 rfl, h2⟩

theorem ofPtr_law (E : FEnv) : LoadLaw 16 V.lanes (fun m p => ofPtr E m p) 1 :=
  by
  intro m p g ha h
  obtain ⟨v, h1, h2⟩ := load_law E _ m p g ha h
  exact ⟨v, bindS h1 rfl, h2⟩

theorem ofList_law (E : FEnv) : LoadLaw 16 V.lanes (fun m p => ofList E m p) 1 :=
  by
  intro m p g ha h
  obtain ⟨v, h1, h2⟩ := load_law E _ m p g ha h
  exact ⟨v, bindS h1 rfl, h2⟩

theorem store_law (E : FEnv) : StoreLaw 16 V.lanes (fun v p => store E v p) 1 :=
  storeOf (fun _ => rfl) fun v p _ => by
  dsimp only [store, V.lanes, st]
  simp only [List.cons_append, List.nil_append, Int.add_assoc, Int.reduceAdd, Int.add_zero]

theorem store_aligned_law (E : FEnv) : StoreLaw 16 V.lanes (fun v p => store_aligned E v p) 1 :=
  by
  intro m v p ha h
  obtain ⟨ws, m', h1, h2⟩ := store_law E m v p ha h
  exact ⟨ws, m', bindS h1 rfl, h2⟩

theorem store_nt_law (E : FEnv) : StoreLaw 16 V.lanes (fun v p => store_nt E v p) 1 :=
  by
  intro m v p ha h
  obtain ⟨ws, m', h1, h2⟩ := store_law E m v p ha h
  exact ⟨ws, m', bindS h1 rfl, h2⟩

theorem opStore_law (E : FEnv) : StoreLaw 16 V.lanes (fun v p => opStore E p v) 1 :=
  by
  intro m v p ha h
  obtain ⟨ws, m', h1, h2⟩ := store_law E m v p ha h
  exact ⟨ws, m', bindS h1 rfl, h2⟩

theorem gather_law (E : FEnv) (v : V) : GatherLaw 16 V.lanes (fun m mo p o => gather E m mo v p o) 1 true :=
  by
  intro m mo p o off g ha hn ho hg
  obtain ⟨o0, o1, o2, o3, o4, o5, o6, o7, o8, o9, o10, o11, o12, o13, o14, o15⟩ := all16 ho
  obtain ⟨g0, g1, g2, g3, g4, g5, g6, g7, g8, g9, g10, g11, g12, g13, g14, g15⟩ := all16 hg
  exact ⟨_, bindS o0 <| bindS g0 <| bindS o1 <| bindS g1 <| bindS o2 <| bindS g2 <| bindS o3 <| bindS g3 <| bindS o4 <| bindS g4
      <| bindS o5 <| bindS g5 <| bindS o6 <| bindS g6 <| bindS o7 <| bindS g7 <| bindS o8 <| bindS g8 <| bindS o9 <| bindS g9 <|
      bindS o10 <| bindS g10 <| bindS o11 <| bindS g11 <| bindS o12 <| bindS g12 <| bindS o13 <| bindS g13 <| bindS o14 <| bindS
      g14 <| bindS o15 <| bindS g15 <| rfl, rfl⟩

theorem scatter_law (E : FEnv) : ScatterLaw 16 V.lanes (fun mo v p o => scatter E mo v p o) 1 :=
  by
  intro mo v p o off ha ho
  obtain ⟨o0, o1, o2, o3, o4, o5, o6, o7, o8, o9, o10, o11, o12, o13, o14, o15⟩ := all16 ho
  refine bindS o0 <| bindS o1 <| bindS o2 <| bindS o3 <| bindS o4 <| bindS o5 <| bindS o6 <| bindS o7 <| bindS o8 <| bindS o9 <|
      bindS o10 <| bindS o11 <| bindS o12 <| bindS o13 <| bindS o14 <| bindS o15 <| ?_
  simp only [List.cons_append, List.nil_append]
  rfl

theorem print_law (E : FEnv) : PrintLaw V.lanes (print E) :=
  fun _ => rfl

end LFA.SV.ScalarInt16

namespace LFA.SV.ScalarInt32

theorem len_law : LenLaw 32 V.lanes :=
  fun _ => rfl

theorem bcast_law (E : FEnv) : BcastLaw 32 V.lanes (bcast E) :=
  fun _ => rfl

theorem opAdd_law (E : FEnv) : BinLaw V.lanes (fun a b => opAdd E a b) (LaneOps.int.add E) :=
  by
  intro a b r h0
  obtain ⟨c0, r0, e0, h1, q0⟩ := map2?_cons h0
  obtain ⟨c1, r1, e1, h2, q1⟩ := map2?_cons h1
  obtain ⟨c2, r2, e2, h3, q2⟩ := map2?_cons h2
  obtain ⟨c3, r3, e3, h4, q3⟩ := map2?_cons h3
  obtain ⟨c4, r4, e4, h5, q4⟩ := map2?_cons h4
  obtain ⟨c5, r5, e5, h6, q5⟩ := map2?_cons h5
  obtain ⟨c6, r6, e6, h7, q6⟩ := map2?_cons h6
  obtain ⟨c7, r7, e7, h8, q7⟩ := map2?_cons h7
  obtain ⟨c8, r8, e8, h9, q8⟩ := map2?_cons h8
  obtain ⟨c9, r9, e9, h10, q9⟩ := map2?_cons h9
  obtain ⟨c10, r10, e10, h11, q10⟩ := map2?_cons h10
  obtain ⟨c11, r11, e11, h12, q11⟩ := map2?_cons h11
  obtain ⟨c12, r12, e12, h13, q12⟩ := map2?_cons h12
  obtain ⟨c13, r13, e13, h14, q13⟩ := map2?_cons h13
  obtain ⟨c14, r14, e14, h15, q14⟩ := map2?_cons h14
  obtain ⟨c15, r15, e15, h16, q15⟩ := map2?_cons h15
  obtain ⟨c16, r16, e16, h17, q16⟩ := map2?_cons h16
  obtain ⟨c17, r17, e17, h18, q17⟩ := map2?_cons h17
  obtain ⟨c18, r18, e18, h19, q18⟩ := map2?_cons h18
  obtain ⟨c19, r19, e19, h20, q19⟩ := map2?_cons h19
  obtain ⟨c20, r20, e20, h21, q20⟩ := map2?_cons h20
  obtain ⟨c21, r21, e21, h22, q21⟩ := map2?_cons h21
  obtain ⟨c22, r22, e22, h23, q22⟩ := map2?_cons h22
  obtain ⟨c23, r23, e23, h24, q23⟩ := map2?_cons h23
  obtain ⟨c24, r24, e24, h25, q24⟩ := map2?_cons h24
  obtain ⟨c25, r25, e25, h26, q25⟩ := map2?_cons h25
  obtain ⟨c26, r26, e26, h27, q26⟩ := map2?_cons h26
  obtain ⟨c27, r27, e27, h28, q27⟩ := map2?_cons h27
  obtain ⟨c28, r28, e28, h29, q28⟩ := map2?_cons h28
  obtain ⟨c29, r29, e29, h30, q29⟩ := map2?_cons h29
  obtain ⟨c30, r30, e30, h31, q30⟩ := map2?_cons h30
  obtain ⟨c31, r31, e31, h32, q31⟩ := map2?_cons h31
  have z := map2?_nil h32
  subst z
  subst q31
  subst q30
  subst q29
  subst q28
  subst q27
  subst q26
  subst q25
  subst q24
  subst q23
  subst q22
  subst q21
  subst q20
  subst q19
  subst q18
  subst q17
  subst q16
  subst q15
  subst q14
  subst q13
  subst q12
  subst q11
  subst q10
  subst q9
  subst q8
  subst q7
  subst q6
  subst q5
  subst q4
  subst q3
  subst q2
  subst q1
  subst q0
  exact ⟨_, bindS e0 <| bindS e1 <| bindS e2 <| bindS e3 <| bindS e4 <| bindS e5 <| bindS e6 <| bindS e7 <| bindS e8 <| bindS e9
      <| bindS e10 <| bindS e11 <| bindS e12 <| bindS e13 <| bindS e14 <| bindS e15 <| bindS e16 <| bindS e17 <| bindS e18 <|
      bindS e19 <| bindS e20 <| bindS e21 <| bindS e22 <| bindS e23 <| bindS e24 <| bindS e25 <| bindS e26 <| bindS e27 <| bindS
      e28 <| bindS e29 <| bindS e30 <| bindS e31 <| rfl, rfl⟩

theorem opSub_law (E : FEnv) : BinLaw V.lanes (fun a b => opSub E a b) (LaneOps.int.sub E) :=
  by
  intro a b r h0
  obtain ⟨c0, r0, e0, h1, q0⟩ := map2?_cons h0
  obtain ⟨c1, r1, e1, h2, q1⟩ := map2?_cons h1
  obtain ⟨c2, r2, e2, h3, q2⟩ := map2?_cons h2
  obtain ⟨c3, r3, e3, h4, q3⟩ := map2?_cons h3
  obtain ⟨c4, r4, e4, h5, q4⟩ := map2?_cons h4
  obtain ⟨c5, r5, e5, h6, q5⟩ := map2?_cons h5
  obtain ⟨c6, r6, e6, h7, q6⟩ := map2?_cons h6
  obtain ⟨c7, r7, e7, h8, q7⟩ := map2?_cons h7
  obtain ⟨c8, r8, e8, h9, q8⟩ := map2?_cons h8
  obtain ⟨c9, r9, e9, h10, q9⟩ := map2?_cons h9
  obtain ⟨c10, r10, e10, h11, q10⟩ := map2?_cons h10
  obtain ⟨c11, r11, e11, h12, q11⟩ := map2?_cons h11
  obtain ⟨c12, r12, e12, h13, q12⟩ := map2?_cons h12
  obtain ⟨c13, r13, e13, h14, q13⟩ := map2?_cons h13
  obtain ⟨c14, r14, e14, h15, q14⟩ := map2?_cons h14
  obtain ⟨c15, r15, e15, h16, q15⟩ := map2?_cons h15
  obtain ⟨c16, r16, e16, h17, q16⟩ := map2?_cons h16
  obtain ⟨c17, r17, e17, h18, q17⟩ := map2?_cons h17
  obtain ⟨c18, r18, e18, h19, q18⟩ := map2?_cons h18
  obtain ⟨c19, r19, e19, h20, q19⟩ := map2?_cons h19
  obtain ⟨c20, r20, e20, h21, q20⟩ := map2?_cons h20
  obtain ⟨c21, r21, e21, h22, q21⟩ := map2?_cons h21
  obtain ⟨c22, r22, e22, h23, q22⟩ := map2?_cons h22
  obtain ⟨c23, r23, e23, h24, q23⟩ := map2?_cons h23
  obtain ⟨c24, r24, e24, h25, q24⟩ := map2?_cons h24
  obtain ⟨c25, r25, e25, h26, q25⟩ := map2?_cons h25
  obtain ⟨c26, r26, e26, h27, q26⟩ := map2?_cons h26
  obtain ⟨c27, r27, e27, h28, q27⟩ := map2?_cons h27
  obtain ⟨c28, r28, e28, h29, q28⟩ := map2?_cons h28
  obtain ⟨c29, r29, e29, h30, q29⟩ := map2?_cons h29
  obtain ⟨c30, r30, e30, h31, q30⟩ := map2?_cons h30
  obtain ⟨c31, r31, e31, h32, q31⟩ := map2?_cons h31
  have z := map2?_nil h32
  subst z
  subst q31
  subst q30
  subst q29
  subst q28
  subst q27
  subst q26
  subst q25
  subst q24
  subst q23
  subst q22
  subst q21
  subst q20
  subst q19
  subst q18
  subst q17
  subst q16
  subst q15
  subst q14
  subst q13
  subst q12
  subst q11
  subst q10
  subst q9
  subst q8
  subst q7
  subst q6
  subst q5
  subst q4
  subst q3
  subst q2
  subst q1
  subst q0
  exact ⟨_, bindS e0 <| bindS e1 <| bindS e2 <| bindS e3 <| bindS e4 <| bindS e5 <| bindS e6 <| bindS e7 <| bindS e8 <| bindS e9
      <| bindS e10 <| bindS e11 <| bindS e12 <| bindS e13 <| bindS e14 <| bindS e15 <| bindS e16 <| bindS e17 <| bindS e18 <|
      bindS e19 <| bindS e20 <| bindS e21 <| bindS e22 <| bindS e23 <| bindS e24 <| bindS e25 <| bindS e26 <| bindS e27 <| bindS
      e28 <| bindS e29 <| bindS e30 <| bindS e31 <| rfl, rfl⟩

theorem opMul_law (E : FEnv) : BinLaw V.lanes (fun a b => opMul E a b) (LaneOps.int.mul E) :=
  by
  intro a b r h0
  obtain ⟨c0, r0, e0, h1, q0⟩ := map2?_cons h0
  obtain ⟨c1, r1, e1, h2, q1⟩ := map2?_cons h1
  obtain ⟨c2, r2, e2, h3, q2⟩ := map2?_cons h2
  obtain ⟨c3, r3, e3, h4, q3⟩ := map2?_cons h3
  obtain ⟨c4, r4, e4, h5, q4⟩ := map2?_cons h4
  obtain ⟨c5, r5, e5, h6, q5⟩ := map2?_cons h5
  obtain ⟨c6, r6, e6, h7, q6⟩ := map2?_cons h6
  obtain ⟨c7, r7, e7, h8, q7⟩ := map2?_cons h7
  obtain ⟨c8, r8, e8, h9, q8⟩ := map2?_cons h8
  obtain ⟨c9, r9, e9, h10, q9⟩ := map2?_cons h9
  obtain ⟨c10, r10, e10, h11, q10⟩ := map2?_cons h10
  obtain ⟨c11, r11, e11, h12, q11⟩ := map2?_cons h11
  obtain ⟨c12, r12, e12, h13, q12⟩ := map2?_cons h12
  obtain ⟨c13, r13, e13, h14, q13⟩ := map2?_cons h13
  obtain ⟨c14, r14, e14, h15, q14⟩ := map2?_cons h14
  obtain ⟨c15, r15, e15, h16, q15⟩ := map2?_cons h15
  obtain ⟨c16, r16, e16, h17, q16⟩ := map2?_cons h16
  obtain ⟨c17, r17, e17, h18, q17⟩ := map2?_cons h17
  obtain ⟨c18, r18, e18, h19, q18⟩ := map2?_cons h18
  obtain ⟨c19, r19, e19, h20, q19⟩ := map2?_cons h19
  obtain ⟨c20, r20, e20, h21, q20⟩ := map2?_cons h20
  obtain ⟨c21, r21, e21, h22, q21⟩ := map2?_cons h21
  obtain ⟨c22, r22, e22, h23, q22⟩ := map2?_cons h22
  obtain ⟨c23, r23, e23, h24, q23⟩ := map2?_cons h23
  obtain ⟨c24, r24, e24, h25, q24⟩ := map2?_cons h24
  obtain ⟨c25, r25, e25, h26, q25⟩ := map2?_cons h25
  obtain ⟨c26, r26, e26, h27, q26⟩ := map2?_cons h26
  obtain ⟨c27, r27, e27, h28, q27⟩ := map2?_cons h27
  obtain ⟨c28, r28, e28, h29, q28⟩ := map2?_cons h28
  obtain ⟨c29, r29, e29, h30, q29⟩ := map2?_cons h29
  obtain ⟨c30, r30, e30, h31, q30⟩ := map2?_cons h30
  obtain ⟨c31, r31, e31, h32, q31⟩ := map2?_cons h31
  have z := map2?_nil h32
  subst z
  subst q31
  subst q30
  subst q29
  subst q28
  subst q27
  subst q26
  subst q25
  subst q24
  subst q23
  subst q22
  subst q21
  subst q20
  subst q19
  subst q18
  subst q17
  subst q16
  subst q15
  subst q14
  subst q13
  subst q12
  subst q11
  subst q10
  subst q9
  subst q8
  subst q7
  subst q6
  subst q5
  subst q4
  subst q3
  subst q2
  subst q1
  subst q0
  exact ⟨_, bindS e0 <| bindS e1 <| bindS e2 <| bindS e3 <| bindS e4 <| bindS e5 <| bindS e6 <| bindS e7 <| bindS e8 <| bindS e9
      <| bindS e10 <| bindS e11 <| bindS e12 <| bindS e13 <| bindS e14 <| bindS e15 <| bindS e16 <| bindS e17 <| bindS e18 <|
      bindS e19 <| bindS e20 <| bindS e21 <| bindS e22 <| bindS e23 <| bindS e24 <| bindS e25 <| bindS e26 <| bindS e27 <| bindS
      e28 <| bindS e29 <| bindS e30 <| bindS e31 <| rfl, rfl⟩

theorem opDiv_law (E : FEnv) : BinLaw V.lanes (fun a b => opDiv E a b) (LaneOps.int.div E) :=
  by
  intro a b r h0
  obtain ⟨c0, r0, e0, h1, q0⟩ := map2?_cons h0
  obtain ⟨c1, r1, e1, h2, q1⟩ := map2?_cons h1
  obtain ⟨c2, r2, e2, h3, q2⟩ := map2?_cons h2
  obtain ⟨c3, r3, e3, h4, q3⟩ := map2?_cons h3
  obtain ⟨c4, r4, e4, h5, q4⟩ := map2?_cons h4
  obtain ⟨c5, r5, e5, h6, q5⟩ := map2?_cons h5
  obtain ⟨c6, r6, e6, h7, q6⟩ := map2?_cons h6
  obtain ⟨c7, r7, e7, h8, q7⟩ := map2?_cons h7
  obtain ⟨c8, r8, e8, h9, q8⟩ := map2?_cons h8
  obtain ⟨c9, r9, e9, h10, q9⟩ := map2?_cons h9
  obtain ⟨c10, r10, e10, h11, q10⟩ := map2?_cons h10
  obtain ⟨c11, r11, e11, h12, q11⟩ := map2?_cons h11
  obtain ⟨c12, r12, e12, h13, q12⟩ := map2?_cons h12
  obtain ⟨c13, r13, e13, h14, q13⟩ := map2?_cons h13
  obtain ⟨c14, r14, e14, h15, q14⟩ := map2?_cons h14
  obtain ⟨c15, r15, e15, h16, q15⟩ := map2?_cons h15
  obtain ⟨c16, r16, e16, h17, q16⟩ := map2?_cons h16
  obtain ⟨c17, r17, e17, h18, q17⟩ := map2?_cons h17
  obtain ⟨c18, r18, e18, h19, q18⟩ := map2?_cons h18
  obtain ⟨c19, r19, e19, h20, q19⟩ := map2?_cons h19
  obtain ⟨c20, r20, e20, h21, q20⟩ := map2?_cons h20
  obtain ⟨c21, r21, e21, h22, q21⟩ := map2?_cons h21
  obtain ⟨c22, r22, e22, h23, q22⟩ := map2?_cons h22
  obtain ⟨c23, r23, e23, h24, q23⟩ := map2?_cons h23
  obtain ⟨c24, r24, e24, h25, q24⟩ := map2?_cons h24
  obtain ⟨c25, r25, e25, h26, q25⟩ := map2?_cons h25
  obtain ⟨c26, r26, e26, h27, q26⟩ := map2?_cons h26
  obtain ⟨c27, r27, e27, h28, q27⟩ := map2?_cons h27
  obtain ⟨c28, r28, e28, h29, q28⟩ := map2?_cons h28
  obtain ⟨c29, r29, e29, h30, q29⟩ := map2?_cons h29
  obtain ⟨c30, r30, e30, h31, q30⟩ := map2?_cons h30
  obtain ⟨c31, r31, e31, h32, q31⟩ := map2?_cons h31
  have z := map2?_nil h32
  subst z
  subst q31
  subst q30
  subst q29
  subst q28
  subst q27
  subst q26
  subst q25
  subst q24
  subst q23
  subst q22
  subst q21
  subst q20
  subst q19
  subst q18
  subst q17
  subst q16
  subst q15
  subst q14
  subst q13
  subst q12
  subst q11
  subst q10
  subst q9
  subst q8
  subst q7
  subst q6
  subst q5
  subst q4
  subst q3
  subst q2
  subst q1
  subst q0
  exact ⟨_, bindS e0 <| bindS e1 <| bindS e2 <| bindS e3 <| bindS e4 <| bindS e5 <| bindS e6 <| bindS e7 <| bindS e8 <| bindS e9
      <| bindS e10 <| bindS e11 <| bindS e12 <| bindS e13 <| bindS e14 <| bindS e15 <| bindS e16 <| bindS e17 <| bindS e18 <|
      bindS e19 <| bindS e20 <| bindS e21 <| bindS e22 <| bindS e23 <| bindS e24 <| bindS e25 <| bindS e26 <| bindS e27 <| bindS
      e28 <| bindS e29 <| bindS e30 <| bindS e31 <| rfl, rfl⟩

theorem opAddAssign_law (E : FEnv) : BinLaw V.lanes (fun a b => opAddAssign E a b) (LaneOps.int.add E) :=
  by
  intro a b r h0
  obtain ⟨c0, r0, e0, h1, q0⟩ := map2?_cons h0
  obtain ⟨c1, r1, e1, h2, q1⟩ := map2?_cons h1
  obtain ⟨c2, r2, e2, h3, q2⟩ := map2?_cons h2
  obtain ⟨c3, r3, e3, h4, q3⟩ := map2?_cons h3
  obtain ⟨c4, r4, e4, h5, q4⟩ := map2?_cons h4
  obtain ⟨c5, r5, e5, h6, q5⟩ := map2?_cons h5
  obtain ⟨c6, r6, e6, h7, q6⟩ := map2?_cons h6
  obtain ⟨c7, r7, e7, h8, q7⟩ := map2?_cons h7
  obtain ⟨c8, r8, e8, h9, q8⟩ := map2?_cons h8
  obtain ⟨c9, r9, e9, h10, q9⟩ := map2?_cons h9
  obtain ⟨c10, r10, e10, h11, q10⟩ := map2?_cons h10
  obtain ⟨c11, r11, e11, h12, q11⟩ := map2?_cons h11
  obtain ⟨c12, r12, e12, h13, q12⟩ := map2?_cons h12
  obtain ⟨c13, r13, e13, h14, q13⟩ := map2?_cons h13
  obtain ⟨c14, r14, e14, h15, q14⟩ := map2?_cons h14
  obtain ⟨c15, r15, e15, h16, q15⟩ := map2?_cons h15
  obtain ⟨c16, r16, e16, h17, q16⟩ := map2?_cons h16
  obtain ⟨c17, r17, e17, h18, q17⟩ := map2?_cons h17
  obtain ⟨c18, r18, e18, h19, q18⟩ := map2?_cons h18
  obtain ⟨c19, r19, e19, h20, q19⟩ := map2?_cons h19
  obtain ⟨c20, r20, e20, h21, q20⟩ := map2?_cons h20
  obtain ⟨c21, r21, e21, h22, q21⟩ := map2?_cons h21
  obtain ⟨c22, r22, e22, h23, q22⟩ := map2?_cons h22
  obtain ⟨c23, r23, e23, h24, q23⟩ := map2?_cons h23
  obtain ⟨c24, r24, e24, h25, q24⟩ := map2?_cons h24
  obtain ⟨c25, r25, e25, h26, q25⟩ := map2?_cons h25
  obtain ⟨c26, r26, e26, h27, q26⟩ := map2?_cons h26
  obtain ⟨c27, r27, e27, h28, q27⟩ := map2?_cons h27
  obtain ⟨c28, r28, e28, h29, q28⟩ := map2?_cons h28
  obtain ⟨c29, r29, e29, h30, q29⟩ := map2?_cons h29
  obtain ⟨c30, r30, e30, h31, q30⟩ := map2?_cons h30
  obtain ⟨c31, r31, e31, h32, q31⟩ := map2?_cons h31
  have z := map2?_nil h32
  subst z
  subst q31
  subst q30
  subst q29
  subst q28
  subst q27
  subst q26
  subst q25
  subst q24
  subst q23
  subst q22
  subst q21
  subst q20
  subst q19
  subst q18
  subst q17
  subst q16
  subst q15
  subst q14
  subst q13
  subst q12
  subst q11
  subst q10
  subst q9
  subst q8
  subst q7
  subst q6
  subst q5
  subst q4
  subst q3
  subst q2
  subst q1
  subst q0
  exact ⟨_, bindS e0 <| bindS e1 <| bindS e2 <| bindS e3 <| bindS e4 <| bindS e5 <| bindS e6 <| bindS e7 <| bindS e8 <| bindS e9
      <| bindS e10 <| bindS e11 <| bindS e12 <| bindS e13 <| bindS e14 <| bindS e15 <| bindS e16 <| bindS e17 <| bindS e18 <|
      bindS e19 <| bindS e20 <| bindS e21 <| bindS e22 <| bindS e23 <| bindS e24 <| bindS e25 <| bindS e26 <| bindS e27 <| bindS
      e28 <| bindS e29 <| bindS e30 <| bindS e31 <| rfl, rfl⟩

theorem opSubAssign_law (E : FEnv) : BinLaw V.lanes (fun a b => opSubAssign E a b) (LaneOps.int.sub E) :=
  by
  intro a b r h0
  obtain ⟨c0, r0, e0, h1, q0⟩ := map2?_cons h0
  obtain ⟨c1, r1, e1, h2, q1⟩ := map2?_cons h1
  obtain ⟨c2, r2, e2, h3, q2⟩ := map2?_cons h2
  obtain ⟨c3, r3, e3, h4, q3⟩ := map2?_cons h3
  obtain ⟨c4, r4, e4, h5, q4⟩ := map2?_cons h4
  obtain ⟨c5, r5, e5, h6, q5⟩ := map2?_cons h5
  obtain ⟨c6, r6, e6, h7, q6⟩ := map2?_cons h6
  obtain ⟨c7, r7, e7, h8, q7⟩ := map2?_cons h7
  obtain ⟨c8, r8, e8, h9, q8⟩ := map2?_cons h8
  obtain ⟨c9, r9, e9, h10, q9⟩ := map2?_cons h9
  obtain ⟨c10, r10, e10, h11, q10⟩ := map2?_cons h10
  obtain ⟨c11, r11, e11, h12, q11⟩ := map2?_cons h11
  obtain ⟨c12, r12, e12, h13, q12⟩ := map2?_cons h12
  obtain ⟨c13, r13, e13, h14, q13⟩ := map2?_cons h13
  obtain ⟨c14, r14, e14, h15, q14⟩ := map2?_cons h14
  obtain ⟨c15, r15, e15, h16, q15⟩ := map2?_cons h15
  obtain ⟨c16, r16, e16, h17, q16⟩ := map2?_cons h16
  obtain ⟨c17, r17, e17, h18, q17⟩ := map2?_cons h17
  obtain ⟨c18, r18, e18, h19, q18⟩ := map2?_cons h18
  obtain ⟨c19, r19, e19, h20, q19⟩ := map2?_cons h19
  obtain ⟨c20, r20, e20, h21, q20⟩ := map2?_cons h20
  obtain ⟨c21, r21, e21, h22, q21⟩ := map2?_cons h21
  obtain ⟨c22, r22, e22, h23, q22⟩ := map2?_cons h22
  obtain ⟨c23, r23, e23, h24, q23⟩ := map2?_cons h23
  obtain ⟨c24, r24, e24, h25, q24⟩ := map2?_cons h24
  obtain ⟨c25, r25, e25, h26, q25⟩ := map2?_cons h25
  obtain ⟨c26, r26, e26, h27, q26⟩ := map2?_cons h26
  obtain ⟨c27, r27, e27, h28, q27⟩ := map2?_cons h27
  obtain ⟨c28, r28, e28, h29, q28⟩ := map2?_cons h28
  obtain ⟨c29, r29, e29, h30, q29⟩ := map2?_cons h29
  obtain ⟨c30, r30, e30, h31, q30⟩ := map2?_cons h30
  obtain ⟨c31, r31, e31, h32, q31⟩ := map2?_cons h31
  have z := map2?_nil h32
  subst z
  subst q31
  subst q30
  subst q29
  subst q28
  subst q27
  subst q26
  subst q25
  subst q24
  subst q23
  subst q22
  subst q21
  subst q20
  subst q19
  subst q18
  subst q17
  subst q16
  subst q15
  subst q14
  subst q13
  subst q12
  subst q11
  subst q10
  subst q9
  subst q8
  subst q7
  subst q6
  subst q5
  subst q4
  subst q3
  subst q2
  subst q1
  subst q0
  exact ⟨_, bindS e0 <| bindS e1 <| bindS e2 <| bindS e3 <| bindS e4 <| bindS e5 <| bindS e6 <| bindS e7 <| bindS e8 <| bindS e9
      <| bindS e10 <| bindS e11 <| bindS e12 <| bindS e13 <| bindS e14 <| bindS e15 <| bindS e16 <| bindS e17 <| bindS e18 <|
      bindS e19 <| bindS e20 <| bindS e21 <| bindS e22 <| bindS e23 <| bindS e24 <| bindS e25 <| bindS e26 <| bindS e27 <| bindS
      e28 <| bindS e29 <| bindS e30 <| bindS e31 <| rfl, rfl⟩

theorem opMulAssign_law (E : FEnv) : BinLaw V.lanes (fun a b => opMulAssign E a b) (LaneOps.int.mulA E) :=
  by
  intro a b r h0
  obtain ⟨c0, r0, e0, h1, q0⟩ := map2?_cons h0
  obtain ⟨c1, r1, e1, h2, q1⟩ := map2?_cons h1
  obtain ⟨c2, r2, e2, h3, q2⟩ := map2?_cons h2
  obtain ⟨c3, r3, e3, h4, q3⟩ := map2?_cons h3
  obtain ⟨c4, r4, e4, h5, q4⟩ := map2?_cons h4
  obtain ⟨c5, r5, e5, h6, q5⟩ := map2?_cons h5
  obtain ⟨c6, r6, e6, h7, q6⟩ := map2?_cons h6
  obtain ⟨c7, r7, e7, h8, q7⟩ := map2?_cons h7
  obtain ⟨c8, r8, e8, h9, q8⟩ := map2?_cons h8
  obtain ⟨c9, r9, e9, h10, q9⟩ := map2?_cons h9
  obtain ⟨c10, r10, e10, h11, q10⟩ := map2?_cons h10
  obtain ⟨c11, r11, e11, h12, q11⟩ := map2?_cons h11
  obtain ⟨c12, r12, e12, h13, q12⟩ := map2?_cons h12
  obtain ⟨c13, r13, e13, h14, q13⟩ := map2?_cons h13
  obtain ⟨c14, r14, e14, h15, q14⟩ := map2?_cons h14
  obtain ⟨c15, r15, e15, h16, q15⟩ := map2?_cons h15
  obtain ⟨c16, r16, e16, h17, q16⟩ := map2?_cons h16
  obtain ⟨c17, r17, e17, h18, q17⟩ := map2?_cons h17
  obtain ⟨c18, r18, e18, h19, q18⟩ := map2?_cons h18
  obtain ⟨c19, r19, e19, h20, q19⟩ := map2?_cons h19
  obtain ⟨c20, r20, e20, h21, q20⟩ := map2?_cons h20
  obtain ⟨c21, r21, e21, h22, q21⟩ := map2?_cons h21
  obtain ⟨c22, r22, e22, h23, q22⟩ := map2?_cons h22
  obtain ⟨c23, r23, e23, h24, q23⟩ := map2?_cons h23
  obtain ⟨c24, r24, e24, h25, q24⟩ := map2?_cons h24
  obtain ⟨c25, r25, e25, h26, q25⟩ := map2?_cons h25
  obtain ⟨c26, r26, e26, h27, q26⟩ := map2?_cons h26
  obtain ⟨c27, r27, e27, h28, q27⟩ := map2?_cons h27
  obtain ⟨c28, r28, e28, h29, q28⟩ := map2?_cons h28
  obtain ⟨c29, r29, e29, h30, q29⟩ := map2?_cons h29
  obtain ⟨c30, r30, e30, h31, q30⟩ := map2?_cons h30
  obtain ⟨c31, r31, e31, h32, q31⟩ := map2?_cons h31
  have z := map2?_nil h32
  subst z
  subst q31
  subst q30
  subst q29
  subst q28
  subst q27
  subst q26
  subst q25
  subst q24
  subst q23
  subst q22
  subst q21
  subst q20
  subst q19
  subst q18
  subst q17
  subst q16
  subst q15
  subst q14
  subst q13
  subst q12
  subst q11
  subst q10
  subst q9
  subst q8
  subst q7
  subst q6
  subst q5
  subst q4
  subst q3
  subst q2
  subst q1
  subst q0
  exact ⟨_, bindS e0 <| bindS e1 <| bindS e2 <| bindS e3 <| bindS e4 <| bindS e5 <| bindS e6 <| bindS e7 <| bindS e8 <| bindS e9
      <| bindS e10 <| bindS e11 <| bindS e12 <| bindS e13 <| bindS e14 <| bindS e15 <| bindS e16 <| bindS e17 <| bindS e18 <|
      bindS e19 <| bindS e20 <| bindS e21 <| bindS e22 <| bindS e23 <| bindS e24 <| bindS e25 <| bindS e26 <| bindS e27 <| bindS
      e28 <| bindS e29 <| bindS e30 <| bindS e31 <| rfl, rfl⟩

theorem opDivAssign_law (E : FEnv) : BinLaw V.lanes (fun a b => opDivAssign E a b) (LaneOps.int.divA E) :=
  by
  intro a b r h0
  obtain ⟨c0, r0, e0, h1, q0⟩ := map2?_cons h0
  obtain ⟨c1, r1, e1, h2, q1⟩ := map2?_cons h1
  obtain ⟨c2, r2, e2, h3, q2⟩ := map2?_cons h2
  obtain ⟨c3, r3, e3, h4, q3⟩ := map2?_cons h3
  obtain ⟨c4, r4, e4, h5, q4⟩ := map2?_cons h4
  obtain ⟨c5, r5, e5, h6, q5⟩ := map2?_cons h5
  obtain ⟨c6, r6, e6, h7, q6⟩ := map2?_cons h6
  obtain ⟨c7, r7, e7, h8, q7⟩ := map2?_cons h7
  obtain ⟨c8, r8, e8, h9, q8⟩ := map2?_cons h8
  obtain ⟨c9, r9, e9, h10, q9⟩ := map2?_cons h9
  obtain ⟨c10, r10, e10, h11, q10⟩ := map2?_cons h10
  obtain ⟨c11, r11, e11, h12, q11⟩ := map2?_cons h11
  obtain ⟨c12, r12, e12, h13, q12⟩ := map2?_cons h12
  obtain ⟨c13, r13, e13, h14, q13⟩ := map2?_cons h13
  obtain ⟨c14, r14, e14, h15, q14⟩ := map2?_cons h14
  obtain ⟨c15, r15, e15, h16, q15⟩ := map2?_cons h15
  obtain ⟨c16, r16, e16, h17, q16⟩ := map2?_cons h16
  obtain ⟨c17, r17, e17, h18, q17⟩ := map2?_cons h17
  obtain ⟨c18, r18, e18, h19, q18⟩ := map2?_cons h18
  obtain ⟨c19, r19, e19, h20, q19⟩ := map2?_cons h19
  obtain ⟨c20, r20, e20, h21, q20⟩ := map2?_cons h20
  obtain ⟨c21, r21, e21, h22, q21⟩ := map2?_cons h21
  obtain ⟨c22, r22, e22, h23, q22⟩ := map2?_cons h22
  obtain ⟨c23, r23, e23, h24, q23⟩ := map2?_cons h23
  obtain ⟨c24, r24, e24, h25, q24⟩ := map2?_cons h24
  obtain ⟨c25, r25, e25, h26, q25⟩ := map2?_cons h25
  obtain ⟨c26, r26, e26, h27, q26⟩ := map2?_cons h26
  obtain ⟨c27, r27, e27, h28, q27⟩ := map2?_cons h27
  obtain ⟨c28, r28, e28, h29, q28⟩ := map2?_cons h28
  obtain ⟨c29, r29, e29, h30, q29⟩ := map2?_cons h29
  obtain ⟨c30, r30, e30, h31, q30⟩ := map2?_cons h30
  obtain ⟨c31, r31, e31, h32, q31⟩ := map2?_cons h31
  have z := map2?_nil h32
  subst z
  subst q31
  subst q30
  subst q29
  subst q28
  subst q27
  subst q26
  subst q25
  subst q24
  subst q23
  subst q22
  subst q21
  subst q20
  subst q19
  subst q18
  subst q17
  subst q16
  subst q15
  subst q14
  subst q13
  subst q12
  subst q11
  subst q10
  subst q9
  subst q8
  subst q7
  subst q6
  subst q5
  subst q4
  subst q3
  subst q2
  subst q1
  subst q0
  exact ⟨_, bindS e0 <| bindS e1 <| bindS e2 <| bindS e3 <| bindS e4 <| bindS e5 <| bindS e6 <| bindS e7 <| bindS e8 <| bindS e9
      <| bindS e10 <| bindS e11 <| bindS e12 <| bindS e13 <| bindS e14 <| bindS e15 <| bindS e16 <| bindS e17 <| bindS e18 <|
      bindS e19 <| bindS e20 <| bindS e21 <| bindS e22 <| bindS e23 <| bindS e24 <| bindS e25 <| bindS e26 <| bindS e27 <| bindS
      e28 <| bindS e29 <| bindS e30 <| bindS e31 <| rfl, rfl⟩

theorem sqrtFn_law (E : FEnv) : UnLaw V.lanes (fun a => some (sqrtFn E a)) (LaneOps.int.sqrt E) :=
  unSome (fun _ => rfl)

theorem sqrt_law (E : FEnv) : UnLaw V.lanes (fun a => some (sqrt E a)) (LaneOps.int.sqrt E) :=
  unSome (fun _ => rfl)

theorem load_law (E : FEnv) (v : V) : LoadLaw 32 V.lanes (fun m p => load E m v p) 1 :=
  by
  intro m p g _ h
  obtain ⟨h0, h1, h2, h3, h4, h5, h6, h7, h8, h9, h10, h11, h12, h13, h14, h15, h16, h17, h18, h19, h20, h21, h22, h23, h24,
      h25, h26, h27, h28, h29, h30, h31⟩ := all32 h
  exact ⟨_, bindS h0 <| bindS h1 <| bindS h2 <| bindS h3 <| bindS h4 <| bindS h5 <| bindS h6 <| bindS h7 <| bindS h8 <| bindS h9
      <| bindS h10 <| bindS h11 <| bindS h12 <| bindS h13 <| bindS h14 <| bindS h15 <| bindS h16 <| bindS h17 <| bindS h18 <|
      bindS h19 <| bindS h20 <| bindS h21 <| bindS h22 <| bindS h23 <| bindS h24 <| bindS h25 <| bindS h26 <| bindS h27 <| bindS
      h28 <| bindS h29 <| bindS h30 <| bindS h31 <| rfl, rfl⟩

theorem load_aligned_law (E : FEnv) (v : V) : LoadLaw 32 V.lanes (fun m p => load_aligned E m v p) 1 :=
  by
  intro m p g ha h
  obtain ⟨v, h1, h2⟩ := load_law E v m p g ha h
  exact ⟨v, bindS h1 rfl, h2⟩

theorem ofPtr_law (E : FEnv) : LoadLaw 32 V.lanes (fun m p => ofPtr E m p) 1 :=
  by
  intro m p g ha h
  obtain ⟨v, h1, h2⟩ := load_law E _ m p g ha h
  exact ⟨v, bindS h1 rfl, h2⟩

theorem ofList_law (E : FEnv) : LoadLaw 32 V.lanes (fun m p => ofList E m p) 1 :=
  by
  intro m p g ha h
  obtain ⟨v, h1, h2⟩ := load_law E _ m p g ha h
  exact ⟨v, bindS h1 rfl, h2⟩

theorem store_law (E : FEnv) : StoreLaw 32 V.lanes (fun v p => store E v p) 1 :=
  storeOf (fun _ => rfl) fun v p _ => by
  dsimp only [store, V.lanes, st]
  simp only [List.cons_append, List.nil_append, Int.add_assoc, Int.reduceAdd, Int.add_zero]

theorem store_aligned_law (E : FEnv) : StoreLaw 32 V.lanes (fun v p => store_aligned E v p) 1 :=
  by
  intro m v p ha h
  obtain ⟨ws, m', h1, h2⟩ := store_law E m v p ha h
  exact ⟨ws, m', bindS h1 rfl, h2⟩

theorem store_nt_law (E : FEnv) : StoreLaw 32 V.lanes (fun v p => store_nt E v p) 1 :=
  by
  intro m v p ha h
  obtain ⟨ws, m', h1, h2⟩ := store_law E m v p ha h
  exact ⟨ws, m', bindS h1 rfl, h2⟩

theorem opStore_law (E : FEnv) : StoreLaw 32 V.lanes (fun v p => opStore E p v) 1 :=
  by
  intro m v p ha h
  obtain ⟨ws, m', h1, h2⟩ := store_law E m v p ha h
  exact ⟨ws, m', bindS h1 rfl, h2⟩

theorem gather_law (E : FEnv) (v : V) : GatherLaw 32 V.lanes (fun m mo p o => gather E m mo v p o) 1 true :=
  by
  intro m mo p o off g ha hn ho hg
  obtain ⟨o0, o1, o2, o3, o4, o5, o6, o7, o8, o9, o10, o11, o12, o13, o14, o15, o16, o17, o18, o19, o20, o21, o22, o23, o24,
      o25, o26, o27, o28, o29, o30, o31⟩ := all32 ho
  obtain ⟨g0, g1, g2, g3, g4, g5, g6, g7, g8, g9, g10, g11, g12, g13, g14, g15, g16, g17, g18, g19, g20, g21, g22, g23, g24,
      g25, g26, g27, g28, g29, g30, g31⟩ := all32 hg
  exact ⟨_, bindS o0 <| bindS g0 <| bindS o1 <| bindS g1 <| bindS o2 <| bindS g2 <| bindS o3 <| bindS g3 <| bindS o4 <| bindS g4
      <| bindS o5 <| bindS g5 <| bindS o6 <| bindS g6 <| bindS o7 <| bindS g7 <| bindS o8 <| bindS g8 <| bindS o9 <| bindS g9 <|
      bindS o10 <| bindS g10 <| bindS o11 <| bindS g11 <| bindS o12 <| bindS g12 <| bindS o13 <| bindS g13 <| bindS o14 <| bindS
      g14 <| bindS o15 <| bindS g15 <| bindS o16 <| bindS g16 <| bindS o17 <| bindS g17 <| bindS o18 <| bindS g18 <| bindS o19
      <| bindS g19 <| bindS o20 <| bindS g20 <| bindS o21 <| bindS g21 <| bindS o22 <| bindS g22 <| bindS o23 <| bindS g23 <|
      bindS o24 <| bindS g24 <| bindS o25 <| bindS g25 <| bindS o26 <| bindS g26 <| bindS o27 <| bindS g27 <| bindS o28 <| bindS
      g28 <| bindS o29 <| bindS g29 <| bindS o30 <| bindS g30 <| bindS o31 <| bindS g31 <| rfl, rfl⟩

theorem scatter_law (E : FEnv) : ScatterLaw 32 V.lanes (fun mo v p o => scatter E mo v p o) 1 :=
  by
  intro mo v p o off ha ho
  obtain ⟨o0, o1, o2, o3, o4, o5, o6, o7, o8, o9, o10, o11, o12, o13, o14, o15, o16, o17, o18, o19, o20, o21, o22, o23, o24,
      o25, o26, o27, o28, o29, o30, o31⟩ := all32 ho
  refine bindS o0 <| bindS o1 <| bindS o2 <| bindS o3 <| bindS o4 <| bindS o5 <| bindS o6 <| bindS o7 <| bindS o8 <| bindS o9 <|
      bindS o10 <| bindS o11 <| bindS o12 <| bindS o13 <| bindS o14 <| bindS o15 <| bindS o16 <| bindS o17 <| bindS o18 <| bindS
      o19 <| bindS o20 <| bindS o21 <| bindS o22 <| bindS o23 <| bindS o24 <| bindS o25 <| bindS o26 <| bindS o27 <| bindS o28
      <| bindS o29 <| bindS o30 <| bindS o31 <| ?_
  simp only [List.cons_append, List.nil_append]
  rfl

theorem print_law (E : FEnv) : PrintLaw V.lanes (print E) :=
  fun _ => rfl

end LFA.SV.ScalarInt32
