import Verif.ThrowingVector
import Verif.ThrowingArrayProof
import Verif.SoaVectorRefine

/-
  Proofs about Verif/ThrowingVector.lean.
-/
set_option linter.unusedSectionVars false
namespace LFA
namespace Throwing
namespace Vec
open ArrSpec (Asg objs asgStruct asgRow throws byStruct byObj)
open Arr (Kind Writes Reach afterK setK)

variable {V : Type} [DecidableEq V] {C : Cfg V} {L : Layout V} {src : Block V → Block V} {ops : List (MemOp V)} {n : Nat} {u : Option V}

/-! ### Cells -/

theorem patch_snoc (cells : Nat → Option (Cell V)) (ts : List (Asg V)) (t : Asg V) :
    VecSpec.patch cells (ts ++ [t]) = fun i =>
      if i = t.1.1 then (VecSpec.patch cells ts i).map fun c => c.set t.1.2.1 t.1.2.2 t.2 else VecSpec.patch cells ts i := by
  simp [VecSpec.patch, List.foldl_append]

theorem patch_isSome (cells : Nat → Option (Cell V)) (ts : List (Asg V)) (i : Nat) :
    (VecSpec.patch cells ts i).isSome = (cells i).isSome := by
  induction ts using List.reverseRecOn with
  | nil => rfl
  | append_singleton ts t ih =>
    rw [patch_snoc]
    simp only
    split
    · rw [Option.isSome_map]; exact ih
    · exact ih

theorem patch_none {cells : Nat → Option (Cell V)} {i : Nat} (h : cells i = none) (ts : List (Asg V)) : VecSpec.patch cells ts i = none := by
  have := patch_isSome cells ts i
  rw [h] at this
  exact Option.not_isSome_iff_eq_none.1 (by rw [this]; simp)

theorem patch_other {cells : Nat → Option (Cell V)} {ts : List (Asg V)} {i : Nat} (h : ∀ t ∈ ts, t.1.1 ≠ i) : VecSpec.patch cells ts i = cells i := by
  induction ts using List.reverseRecOn with
  | nil => rfl
  | append_singleton ts t ih =>
    rw [patch_snoc]
    simp only
    rw [if_neg fun e => h t (by simp) e.symm]
    exact ih fun t' ht' => h t' (by simp [ht'])

theorem afterK_vcont {cells : Nat → Option (Cell V)} {ts : List (Asg V)} (h : ∀ t ∈ ts, (cells t.1.1).isSome = true) :
    afterK (vcont cells) ts = vcont (VecSpec.patch cells ts) := by
  induction ts using List.reverseRecOn with
  | nil => rfl
  | append_singleton ts t ih =>
    rw [Arr.afterK_snoc, patch_snoc, ih fun t' ht' => h t' (by simp [ht'])]
    obtain ⟨⟨i', r', k'⟩, v⟩ := t
    have ht := h ((i', r', k'), v) (by simp)
    rw [← patch_isSome cells ts] at ht
    obtain ⟨c, hc⟩ := Option.isSome_iff_exists.1 ht
    funext r k i
    unfold setK vcont
    simp only [Prod.mk.injEq] at hc ⊢
    by_cases hi : i = i'
    · subst hi
      rw [hc]
      simp only [if_true, Option.map_some, true_and, Cell.set]
      by_cases hrk : r' = r ∧ k' = k
      · rw [if_pos hrk, if_pos ⟨hrk.1.symm, hrk.2.symm⟩]
      · rw [if_neg hrk, if_neg fun h => hrk ⟨h.1.symm, h.2.symm⟩]
    · rw [if_neg fun h => hi h.1.symm, if_neg hi]

/-! ### Exceptions -/

theorem throws_trivial (h : ArrSpec.trivial L = true) (ks : List (Nat × Nat)) (n : Nat) : throws L ks n = false := by
  unfold throws
  split
  · split
    · rename_i m hm
      unfold ArrSpec.trivial at h
      rw [List.all_eq_true] at h
      rw [h m (List.mem_of_getElem? hm)]; rfl
    · rfl
  · rfl

/-- No exception, for whatever reason. -/
theorem upTo_quiet {ks : List (Nat × Nat)} (H : List.Forall₂ (Kind L) ops ks) (h : throws L ks n = false) (u : Option V) (b : Block V) :
    Throwing.upTo src ops n u b = .ok none := by
  have hlen := H.length_eq
  unfold Throwing.upTo
  unfold throws at h
  by_cases hn : n < ops.length
  · have hK := H.get (i := n) hn (by omega)
    simp only [List.get_eq_getElem] at hK
    obtain ⟨m, hm, ht⟩ := hK
    rw [List.getElem?_eq_getElem hn]
    rw [List.getElem?_eq_getElem (by omega : n < ks.length)] at h
    simp only [ht, hm] at h ⊢
    cases hty : m.ty with
    | mk sz tr =>
      rw [hty] at h
      cases tr with
      | true => rfl
      | false => cases h
  · rw [List.getElem?_eq_none (by omega)]

/-- A functor whose operations do not throw. -/
theorem callback_quiet {h : Heap V} {g : Grid} {a : AVec V} (hg : VecOK C h g a) {ops : Ext → List (MemOp V)} {ks : List (Nat × Nat)}
    (H : List.Forall₂ (Kind C.L) (ops ⟨a.ext, 1, 1⟩) ks) (hq : throws C.L ks n = false) : callback C g ops src n u h = .ok none := by
  obtain ⟨id, b, h1, h2, -, -⟩ := hg.buf
  unfold callback
  rw [hg.dim, hg.sel]
  simp only [onBuffer, h1, h2, upTo_quiet H hq]
  rfl

/-- What is left of a vector after the assignments `ts`. -/
theorem VecOK.patch {h : Heap V} {g : Grid} {a : AVec V} (hg : VecOK C h g a) {ts : List (Asg V)}
    (hts : ∀ t ∈ ts, (a.cells t.1.1).isSome = true) {id : Nat} {b b' : Block V} (h1 : g.data = some id) (h2 : h.blk id = some b)
    (hs : b'.size = b.size) (hv : View C.L a.ext b' (afterK (vcont a.cells) ts)) :
    VecOK C (h.set id b') g { a with cells := VecSpec.patch a.cells ts } := by
  obtain ⟨id', b0, q1, q2, q3, -⟩ := hg.buf
  rw [h1] at q1; cases q1
  rw [h2] at q2; cases q2
  rw [afterK_vcont hts] at hv
  exact ⟨hg.dim, hg.sel, hg.bs, hg.ex, fun i hi => by rw [patch_isSome]; exact hg.live i hi, fun i hi => hg.bnd i (by rwa [patch_isSome] at hi),
    fun ht i hi => patch_none (hg.nt ht i hi) ts, id, b', h1, by simp, hs.trans q3, hv⟩

theorem isSome_upTo {a : AVec V} {ts : List (Asg V)} (hts : ∀ t ∈ ts, (a.cells t.1.1).isSome = true) :
    ∀ t ∈ ArrSpec.upTo ts n u, (a.cells t.1.1).isSome = true := by
  intro t ht
  obtain ⟨t', h1, h2⟩ := Arr.mem_upTo ht
  rw [h2]; exact hts t' h1

/-- A functor which assigns to existing cells. -/
theorem onBuffer_patch (hL : C.L.WF) {h : Heap V} {g : Grid} {a : AVec V} (hg : VecOK C h g a) {ops : List (MemOp V)} {ts : List (Asg V)}
    (H : List.Forall₂ (Writes C.L a.ext src (vcont a.cells) ts) ops ts) (hts : ∀ t ∈ ts, (a.cells t.1.1).isSome = true) (n : Nat)
    (u : Option V) :
    ∃ oh, onBuffer g.data src ops n u h = .ok oh ∧ oh.isSome = throws C.L (ts.map fun t => t.1.2) n ∧
      ∀ h', oh = some h' → ∃ id b', g.data = some id ∧ h' = h.set id b' ∧
        VecOK C h' g { a with cells := VecSpec.patch a.cells (ArrSpec.upTo ts n u) } := by
  obtain ⟨id, b, h1, h2, h3, h4⟩ := hg.buf
  obtain ⟨ob, k1, k2, k3⟩ := Arr.upTo_viewK hL H h4 n u
  refine ⟨ob.map fun b' => h.set id b', ?_, by rw [Option.isSome_map]; exact k2, fun h' e => ?_⟩
  · simp only [onBuffer, h1, h2, k1]; rfl
  · rw [Option.map_eq_some_iff] at e
    obtain ⟨b', rfl, rfl⟩ := e
    obtain ⟨j1, j2⟩ := k3 b' rfl
    exact ⟨id, b', h1, rfl, VecOK.patch hg (isSome_upTo hts) h1 h2 j1 j2⟩

theorem callback_patch (hL : C.L.WF) {h : Heap V} {g : Grid} {a : AVec V} (hg : VecOK C h g a) {ops : Ext → List (MemOp V)} {ts : List (Asg V)}
    (H : List.Forall₂ (Writes C.L a.ext src (vcont a.cells) ts) (ops ⟨a.ext, 1, 1⟩) ts) (hts : ∀ t ∈ ts, (a.cells t.1.1).isSome = true) (n : Nat)
    (u : Option V) :
    ∃ oh, callback C g ops src n u h = .ok oh ∧ oh.isSome = throws C.L (ts.map fun t => t.1.2) n ∧
      ∀ h', oh = some h' → ∃ id b', g.data = some id ∧ h' = h.set id b' ∧
        VecOK C h' g { a with cells := VecSpec.patch a.cells (ArrSpec.upTo ts n u) } := by
  obtain ⟨oh, k1, k2, k3⟩ := onBuffer_patch hL hg H hts n u
  refine ⟨oh, ?_, k2, k3⟩
  unfold callback
  rw [hg.dim, hg.sel]
  exact k1

/-! ### The operations of each function -/

theorem setOps_writesK (hL : L.WF) {e : Ext} {A : Acc} {i : Nat} (hA : A.At i) (hAe : A.ext = e) (hi : i < e.prod) {c0 : Cont V} (ts : List (Asg V))
    (hc : ∀ r k, (c0 r k i).isSome = true) (c : Cell V) :
    List.Forall₂ (Writes L e.prod src c0 ts) (setOps L A c) (asgStruct L i c) := by
  unfold setOps asgStruct
  rw [Arr.objs_eq]
  refine forall2_map fun q hq => ?_
  obtain ⟨hm, hk⟩ := mem_memKeys hq
  subst hAe
  have h := setOp_range hL hA hq
  exact ⟨hi, hc _ _, q.2.1, hm, hk, congrArg (fun a => some (a, _)) h, fun b _ _ _ => congrArg (fun a => b.assign a _ _) h⟩

theorem setOps_kindK (L : Layout V) (A : Acc) (c : Cell V) : List.Forall₂ (Kind L) (setOps L A c) (objs L) := by
  unfold setOps
  rw [Arr.objs_eq]
  refine forall2_map' fun q hq => ?_
  obtain ⟨hm, hk⟩ := mem_memKeys hq
  exact ⟨q.2.1, hm, rfl⟩

theorem At1 (e i : Nat) : (accAt ⟨e, 1, 1⟩ (genIndex ⟨e, 1, 1⟩ (i : Nat) 0 0)).At i := by
  have := genIndex_lin ⟨e, 1, 1⟩ i 0 0
  rw [lin1] at this
  rw [show genIndex ⟨e, 1, 1⟩ (i : Nat) 0 0 = ((i : Nat) : Int) from this]
  exact accAt_At _ _

/-- `set` of one struct. -/
theorem setList_one (e : Ext) (c : Cell V) (i : Nat) : setList L e 1 [c] i 0 0 1 = setOps L (accAt e (genIndex e (i : Nat) 0 0)) c := by
  simp [setList, setOpsAt]

/-- `broadcast`. -/
theorem setList_all (e : Ext) (c : Cell V) (m : Nat) : setList L e 0 [c] 0 0 0 m =
    (List.range m).flatMap fun (i : Nat) => setOps L (accAt e (genIndex e (i : Nat) 0 0)) c := by
  unfold setList
  refine List.flatMap_congr fun i _ => ?_
  simp [setOpsAt]

theorem fill_keys (L : Layout V) (c : Cell V) (m : Nat) :
    ((List.range m).flatMap fun i => asgStruct L i c).map (fun t => t.1.2) = byStruct L m := by
  unfold byStruct
  rw [List.map_flatMap]
  simp only [Arr.asgStruct_keys]

/-- `load` of the first `new.length` structs. -/
theorem loadList_writes1 (hL : L.WF) {e M : Nat} (new : List (Cell V)) (hN : new.length ≤ e)
    {c0 : Cont V} (hc : ∀ r k i, i < new.length → (c0 r k i).isSome = true) (ts : List (Asg V))
    (hsrc : ∀ b c, View L e b c → Reach c0 ts c → ∀ r m k i (hi : i < new.length), L[r]? = some m → k < m.elems →
      (src b).read (slot M (offset L r) m.ty.size k i : Nat) m.ty = .ok (new[i] r k)) :
    List.Forall₂ (Writes L e src c0 ts) (loadList L ⟨e, 1, 1⟩ M [⟨0, 0, 0, new.length⟩] 0) (asgRow L 0 new) := by
  simp only [loadList, List.append_nil]
  unfold asgRow
  rw [Arr.objs_eq]
  refine forall2_flatMap fun q hq => Arr.row_forall2 new _ _ fun i hi => ?_
  obtain ⟨hm, hk⟩ := mem_memKeys hq
  have hpos := hL.elems_pos hm
  have hAt : (accAt ⟨e, 1, 1⟩ (genIndex ⟨e, 1, 1⟩ ((0 : Nat) : Int) ((0 : Nat) : Int) ((0 : Nat) : Int))).At 0 := At1 e 0
  have hop : loadOp L (accAt ⟨e, 1, 1⟩ (genIndex ⟨e, 1, 1⟩ ((0 : Nat) : Int) ((0 : Nat) : Int) ((0 : Nat) : Int))) 0 M q i =
      .copy (slot M (offset L q.1) q.2.1.ty.size q.2.2 i : Nat) (slot e (offset L q.1) q.2.1.ty.size q.2.2 i : Nat) q.2.1.ty := by
    unfold loadOp
    cases ha : q.2.1.arity with
    | none =>
      have h0 : q.2.2 = 0 := by rw [elems_none ha] at hk; omega
      simp only [h0]
      rw [Acc.member_row_slot L hAt q.1 q.2.1 i hpos, Acc.raw_slot]
      simp only [Nat.zero_add]
      show MemOp.copy _ ((slot (Ext.prod ⟨e, 1, 1⟩) _ _ _ _ : Nat) : Int) _ = _
      rw [prod1]
    | some _ =>
      simp only
      rw [Acc.arrayRef_plane_row_slot L hAt q.1 q.2.1 q.2.2 i hpos, Acc.raw_plane_slot]
      simp only [Nat.zero_add]
      show MemOp.copy _ ((slot (Ext.prod ⟨e, 1, 1⟩) _ _ _ _ : Nat) : Int) _ = _
      rw [prod1]
  rw [hop]
  refine ⟨by show 0 + i < e; omega, hc _ _ _ (by show 0 + i < _; omega), q.2.1, hm, hk, ?_, fun b c hb hR => ?_⟩
  · show some _ = some _; rw [Nat.zero_add]
  · show ((src b).read _ _).bind _ = _
    rw [hsrc b c hb hR _ _ _ i hi hm hk, Nat.zero_add]
    rfl

/-- `copy_members` of the first `new.length` structs. -/
theorem copyList_writes1 (hL : L.WF) {e : Nat} (new : List (Cell V)) (hN : new.length ≤ e)
    {c0 : Cont V} (hc : ∀ r k i, i < new.length → (c0 r k i).isSome = true) (ts : List (Asg V))
    (hsrc : ∀ b c, View L e b c → Reach c0 ts c → ∀ r m k i (hi : i < new.length), L[r]? = some m → k < m.elems →
      (src b).read (slot e (offset L r) m.ty.size k i : Nat) m.ty = .ok (new[i] r k)) :
    List.Forall₂ (Writes L e src c0 ts) (copyList L ⟨new.length, 1, 1⟩ ⟨e, 1, 1⟩ ⟨e, 1, 1⟩) (asgRow L 0 new) := by
  have hAt : (accAt ⟨e, 1, 1⟩ (genIndex ⟨e, 1, 1⟩ 0 ((0 : Nat) : Int) ((0 : Nat) : Int))).At 0 := At1 e 0
  have hcl : copyList L ⟨new.length, 1, 1⟩ ⟨e, 1, 1⟩ ⟨e, 1, 1⟩ = (memKeys L).flatMap fun q => (List.range new.length).map fun i =>
      copyOp L (accAt ⟨e, 1, 1⟩ (genIndex ⟨e, 1, 1⟩ 0 ((0 : Nat) : Int) ((0 : Nat) : Int)))
        (accAt ⟨e, 1, 1⟩ (genIndex ⟨e, 1, 1⟩ 0 ((0 : Nat) : Int) ((0 : Nat) : Int))) q i := by
    simp [copyList]
  rw [hcl]
  unfold asgRow
  rw [Arr.objs_eq]
  refine forall2_flatMap fun q hq => Arr.row_forall2 new _ _ fun i hi => ?_
  obtain ⟨hm, hk⟩ := mem_memKeys hq
  have hpos := hL.elems_pos hm
  have hop : copyOp L (accAt ⟨e, 1, 1⟩ (genIndex ⟨e, 1, 1⟩ 0 ((0 : Nat) : Int) ((0 : Nat) : Int)))
        (accAt ⟨e, 1, 1⟩ (genIndex ⟨e, 1, 1⟩ 0 ((0 : Nat) : Int) ((0 : Nat) : Int))) q i =
      .copy (slot e (offset L q.1) q.2.1.ty.size q.2.2 i : Nat) (slot e (offset L q.1) q.2.1.ty.size q.2.2 i : Nat) q.2.1.ty := by
    have he : (accAt ⟨e, 1, 1⟩ (genIndex ⟨e, 1, 1⟩ 0 ((0 : Nat) : Int) ((0 : Nat) : Int))).ext.prod = e := prod1 e
    unfold copyOp
    cases ha : q.2.1.arity with
    | none =>
      have h0 : q.2.2 = 0 := by rw [elems_none ha] at hk; omega
      have h1 := Acc.member_row_slot L hAt q.1 q.2.1 i hpos
      rw [Nat.zero_add, he] at h1
      simp only [h0]
      rw [h1]
    | some _ =>
      have h1 := Acc.arrayRef_row_slot L hAt q.1 q.2.1 q.2.2 i hpos
      rw [Nat.zero_add, he] at h1
      simp only
      rw [h1]
  rw [hop]
  refine ⟨by show 0 + i < e; omega, hc _ _ _ (by show 0 + i < _; omega), q.2.1, hm, hk, ?_, fun b c hb hR => ?_⟩
  · show some _ = some _; rw [Nat.zero_add]
  · show ((src b).read _ _).bind _ = _
    rw [hsrc b c hb hR _ _ _ i hi hm hk, Nat.zero_add]
    rfl

theorem constructList_kind1 (L : Layout V) (m : Nat) (e : Ext) : List.Forall₂ (Kind L) (constructList L ⟨m, 1, 1⟩ e) (byStruct L m) := by
  have h : constructList L ⟨m, 1, 1⟩ e = (List.range m).flatMap fun (x : Nat) => constructOps L (accAt e (genIndex e x ((0 : Nat) : Int) ((0 : Nat) : Int))) := by
    simp [constructList]
  rw [h]
  unfold byStruct
  refine forall2_flatMap' fun i _ => ?_
  unfold constructOps
  rw [Arr.objs_eq]
  refine forall2_map' fun q hq => ?_
  obtain ⟨hm, -⟩ := mem_memKeys hq
  exact ⟨q.2.1, hm, rfl⟩

theorem byStruct_length (L : Layout V) (m : Nat) : (byStruct L m).length = m * (objs L).length := by
  simp [byStruct, List.length_flatMap]

theorem byObj_length (L : Layout V) (m : Nat) : (byObj L m).length = m * (objs L).length := by
  simp [byObj, List.length_flatMap, Nat.mul_comm]

theorem constructList_length1 (L : Layout V) (m : Nat) (e : Ext) : (constructList L ⟨m, 1, 1⟩ e).length = m * (objs L).length := by
  rw [(constructList_kind1 L m e).length_eq, byStruct_length]

end Vec
end Throwing
end LFA
