import Verif.ThrowingArray
import Mathlib.Data.List.Induction
import Verif.ThrowingProof
import Verif.SoaArrayProof
import Verif.Props.Throwing

/-
  Proofs about Verif/ThrowingArray.lean.
-/
set_option linter.unusedSectionVars false
namespace LFA
namespace Throwing
namespace Arr
open SArr ArrSpec

variable {V : Type} [DecidableEq V] {L : Layout V} {src : Block V → Block V} {ops : List (MemOp V)} {n : Nat} {u : Option V}

/-! ### Which operations throw -/

/-- The operation constructs or assigns to object `p` of a struct. -/
def Kind (L : Layout V) (o : MemOp V) (p : Nat × Nat) : Prop := ∃ m, L[p.1]? = some m ∧ objTy o = some m.ty

theorem assign_any {b b' : Block V} {a : Int} {ty : Ty} {v v' : V} (h : b.assign a ty v = .ok b') : ∃ b'', b.assign a ty v' = .ok b'' := by
  unfold Block.assign at h ⊢
  by_cases h1 : b.inB a ty.size = true
  · rw [if_pos h1] at h ⊢
    by_cases h2 : (if ty.triv then b.noNT a.toNat ty.size else (b.rd a.toNat ty).isSome) = true
    · rw [if_pos h2]; exact ⟨_, rfl⟩
    · rw [if_neg h2] at h; cases h
  · rw [if_neg h1] at h; cases h

theorem failed_ok {o : MemOp V} {b b' : Block V} (h : exec src o b = .ok b') (u : Option V) : ∃ b'', failed src u o b = .ok b'' := by
  unfold failed
  rw [h]
  show ∃ b'', (match o, u with
    | .assign a ty _, some v => b.assign a ty v
    | .copy _ a ty, some v => b.assign a ty v
    | _, _ => Except.ok b) = Except.ok b''
  cases u with
  | none => cases o <;> exact ⟨b, rfl⟩
  | some v =>
    cases o with
    | assign a ty v' => exact assign_any h
    | copy sa a ty =>
      simp only [exec, MemOp.exec] at h
      cases hr : (src b).read sa ty with
      | error e => rw [hr] at h; cases h
      | ok x => rw [hr] at h; exact assign_any h
    | _ => exact ⟨b, rfl⟩

/-- Prefixes of an execution. -/
theorem prefix_run {b b' : Block V} (h : runL (exec src) ops b = .ok b') (n : Nat) (hn : n < ops.length) :
    ∃ b1 b2, runL (exec src) (ops.take n) b = .ok b1 ∧ exec src ops[n] b1 = .ok b2 := by
  have : ops = ops.take n ++ (ops[n] :: ops.drop (n + 1)) := by
    rw [← List.drop_eq_getElem_cons hn, List.take_append_drop]
  rw [this, runL_append] at h
  cases h1 : runL (exec src) (ops.take n) b with
  | error e => rw [h1] at h; cases h
  | ok b1 =>
    rw [h1] at h
    simp only [Except.bind, runL] at h
    cases h2 : exec src ops[n] b1 with
    | error e => rw [h2] at h; cases h
    | ok b2 => exact ⟨b1, b2, rfl, h2⟩

/-- An exception does not add undefined behaviour. -/
theorem upTo_defined {ks : List (Nat × Nat)} (H : List.Forall₂ (Kind L) ops ks) {b b' : Block V} (h : runL (exec src) ops b = .ok b')
    (n : Nat) (u : Option V) : ∃ ob, Throwing.upTo src ops n u b = .ok ob ∧ ob.isSome = throws L ks n := by
  have hlen := H.length_eq
  unfold Throwing.upTo throws
  by_cases hn : n < ops.length
  · have hK := H.get (i := n) hn (by omega)
    simp only [List.get_eq_getElem] at hK
    obtain ⟨m, hm, ht⟩ := hK
    rw [List.getElem?_eq_getElem hn, List.getElem?_eq_getElem (by omega : n < ks.length)]
    simp only [ht, hm]
    obtain ⟨b1, b2, h1, h2⟩ := prefix_run h n hn
    obtain ⟨b3, h3⟩ := failed_ok h2 u
    rw [h1]
    cases hty : m.ty with
    | mk sz tr =>
      cases tr with
      | true => exact ⟨none, rfl, rfl⟩
      | false => exact ⟨some b3, by simp only [Except.bind, h3]; rfl, rfl⟩
  · rw [List.getElem?_eq_none (by omega), List.getElem?_eq_none (by omega)]
    exact ⟨none, rfl, rfl⟩

/-! ### Values left behind -/

/-- One assignment. -/
def setC (c : Nat → Cell V) (t : Asg V) : Nat → Cell V := fun i => if i = t.1.1 then (c i).set t.1.2.1 t.1.2.2 t.2 else c i

/-- A sequence of assignments. -/
def afterC (c : Nat → Cell V) (ts : List (Asg V)) : Nat → Cell V := ts.foldl setC c

theorem afterC_snoc (c : Nat → Cell V) (ts : List (Asg V)) (t : Asg V) : afterC c (ts ++ [t]) = setC (afterC c ts) t := by
  simp [afterC, List.foldl_append]

theorem setC_or (c : Nat → Cell V) (t : Asg V) (i r k : Nat) :
    (setC c t i r k = c i r k ∧ t.1 ≠ (i, r, k)) ∨ (t.1 = (i, r, k) ∧ setC c t i r k = t.2) := by
  obtain ⟨⟨i', r', k'⟩, v⟩ := t
  unfold setC Cell.set
  by_cases h : i = i'
  · by_cases h2 : r = r' ∧ k = k'
    · right; obtain ⟨rfl, rfl⟩ := h2; subst h; simp
    · left
      subst h
      refine ⟨by simp [h2], fun e => h2 ?_⟩
      simp only [Prod.mk.injEq, true_and] at e
      exact ⟨e.1.symm, e.2.symm⟩
  · left
    refine ⟨by simp [h], fun e => h ?_⟩
    simp only [Prod.mk.injEq] at e
    exact e.1.symm

theorem afterC_or (c : Nat → Cell V) (ts : List (Asg V)) (i r k : Nat) :
    afterC c ts i r k = c i r k ∨ ∃ t ∈ ts, t.1 = (i, r, k) ∧ afterC c ts i r k = t.2 := by
  induction ts using List.reverseRecOn with
  | nil => exact .inl rfl
  | append_singleton ts t ih =>
    rw [afterC_snoc]
    rcases setC_or (afterC c ts) t i r k with ⟨h, -⟩ | ⟨h1, h2⟩
    · rw [h]
      rcases ih with ih | ⟨t', h1, h2⟩
      · exact .inl ih
      · exact .inr ⟨t', List.mem_append_left _ h1, h2⟩
    · exact .inr ⟨t, by simp, h1, h2⟩

theorem afterC_other {c : Nat → Cell V} {ts : List (Asg V)} {i : Nat} (h : ∀ t ∈ ts, t.1.1 ≠ i) : afterC c ts i = c i := by
  funext r k
  rcases afterC_or c ts i r k with h1 | ⟨t, h1, h2, -⟩
  · exact h1
  · exact absurd (by rw [h2]) (h t h1)

/-- The values of the objects after an assignment. -/
def setK (c : Cont V) (t : Asg V) : Cont V := fun r k i => if t.1 = (i, r, k) then some t.2 else c r k i

/-- The values of the objects after a sequence of assignments. -/
def afterK (c : Cont V) (ts : List (Asg V)) : Cont V := ts.foldl setK c

theorem afterK_snoc (c : Cont V) (ts : List (Asg V)) (t : Asg V) : afterK c (ts ++ [t]) = setK (afterK c ts) t := by
  simp [afterK, List.foldl_append]

theorem afterK_or (c : Cont V) (ts : List (Asg V)) (i r k : Nat) :
    afterK c ts r k i = c r k i ∨ ∃ t ∈ ts, t.1 = (i, r, k) ∧ afterK c ts r k i = some t.2 := by
  induction ts using List.reverseRecOn with
  | nil => exact .inl rfl
  | append_singleton ts t ih =>
    rw [afterK_snoc]
    unfold setK
    by_cases h : t.1 = (i, r, k)
    · rw [if_pos h]; exact .inr ⟨t, by simp, h, rfl⟩
    · rw [if_neg h]
      rcases ih with ih | ⟨t', h1, h2⟩
      · exact .inl ih
      · exact .inr ⟨t', List.mem_append_left _ h1, h2⟩

theorem afterK_some {c : Cont V} {i r k : Nat} (h : (c r k i).isSome = true) (ts : List (Asg V)) : (afterK c ts r k i).isSome = true := by
  rcases afterK_or c ts i r k with h1 | ⟨t, -, -, h1⟩
  · rw [h1]; exact h
  · rw [h1]; rfl

theorem afterK_cont (c : Nat → Cell V) (ts : List (Asg V)) : afterK (cont c) ts = cont (afterC c ts) := by
  induction ts using List.reverseRecOn with
  | nil => rfl
  | append_singleton ts t ih =>
    rw [afterK_snoc, afterC_snoc, ih]
    funext r k i
    unfold setK cont
    rcases setC_or (afterC c ts) t i r k with ⟨h1, h2⟩ | ⟨h1, h2⟩
    · rw [if_neg h2, h1]
    · rw [if_pos h1, h2]

/-- The content may have been reached by some of the assignments in `ts`. -/
def Reach (c0 : Cont V) (ts : List (Asg V)) (c : Cont V) : Prop :=
  ∀ i r k, c r k i = c0 r k i ∨ ∃ t ∈ ts, t.1 = (i, r, k) ∧ c r k i = some t.2

theorem Reach.take (c0 : Cont V) (ts : List (Asg V)) (n : Nat) : Reach c0 ts (afterK c0 (ts.take n)) := by
  intro i r k
  rcases afterK_or c0 (ts.take n) i r k with h | ⟨t, h1, h2⟩
  · exact .inl h
  · exact .inr ⟨t, List.mem_of_mem_take h1, h2⟩

/-- The operation `o` is the assignment `t`, whichever of the assignments in `ts` took place already. -/
def Writes (L : Layout V) (P : Nat) (src : Block V → Block V) (c0 : Cont V) (ts : List (Asg V)) (o : MemOp V) (t : Asg V) : Prop :=
  t.1.1 < P ∧ (c0 t.1.2.1 t.1.2.2 t.1.1).isSome = true ∧ ∃ m, L[t.1.2.1]? = some m ∧ t.1.2.2 < m.elems ∧
    target o = some (((slot P (offset L t.1.2.1) m.ty.size t.1.2.2 t.1.1 : Nat) : Int), m.ty) ∧
    ∀ b c, View L P b c → Reach c0 ts c →
      exec src o b = b.assign (slot P (offset L t.1.2.1) m.ty.size t.1.2.2 t.1.1 : Nat) m.ty t.2

theorem assign_view (hL : L.WF) {P : Nat} {b : Block V} {c : Cont V} (hb : View L P b c) {t : Asg V} {m : Member V}
    (hm : L[t.1.2.1]? = some m) (hk : t.1.2.2 < m.elems) (hi : t.1.1 < P) (hc : (c t.1.2.1 t.1.2.2 t.1.1).isSome = true) :
    ∃ b', b.assign (slot P (offset L t.1.2.1) m.ty.size t.1.2.2 t.1.1 : Nat) m.ty t.2 = .ok b' ∧ b'.size = b.size ∧
      View L P b' (setK c t) := by
  obtain ⟨v, hv⟩ := Option.isSome_iff_exists.1 hc
  refine ⟨_, Block.assign_ok t.2 (hL.size_pos hm) (hb.bound hm hk hi) (.inr ⟨_, hb.hsome _ m _ _ _ hm hk hi hv⟩), rfl, ?_⟩
  refine hb.put hm hk hi t.2 ?_ fun r k i hne => ?_
  · simp [setK]
  · unfold setK
    rw [if_neg]
    intro h
    rw [h] at hne; exact absurd ⟨rfl, rfl, rfl⟩ hne

theorem prefix_view (hL : L.WF) {P : Nat} {c0 : Cont V} {ts : List (Asg V)} (H : List.Forall₂ (Writes L P src c0 ts) ops ts)
    {b : Block V} (hb : View L P b c0) (n : Nat) (hn : n ≤ ops.length) :
    ∃ b', runL (exec src) (ops.take n) b = .ok b' ∧ b'.size = b.size ∧ View L P b' (afterK c0 (ts.take n)) := by
  induction n with
  | zero => exact ⟨b, rfl, rfl, hb⟩
  | succ n ih =>
    obtain ⟨b', k1, k2, k3⟩ := ih (by omega)
    have hlen := H.length_eq
    have hD := H.get (i := n) (by omega) (by omega)
    simp only [List.get_eq_getElem] at hD
    obtain ⟨hi, hc, m, hm, hk, -, hrun⟩ := hD
    obtain ⟨b'', j1, j2, j3⟩ := assign_view hL k3 hm hk hi (afterK_some hc _)
    refine ⟨b'', ?_, j2.trans k2, ?_⟩
    · rw [List.take_succ_eq_append_getElem (by omega), runL_snoc _ _ _ _ _ k1, hrun b' _ k3 (Reach.take c0 ts n), j1]
    · rw [List.take_succ_eq_append_getElem (by omega), afterK_snoc]
      exact j3

theorem Writes.kind {P : Nat} {c0 : Cont V} {ts : List (Asg V)} {o : MemOp V} {t : Asg V} (h : Writes L P src c0 ts o t) :
    Kind L o t.1.2 := by
  obtain ⟨-, -, m, hm, -, ht, -⟩ := h
  refine ⟨m, hm, ?_⟩
  revert ht
  cases o <;> simp only [target, objTy, Option.some.injEq, Prod.mk.injEq, reduceCtorEq, false_imp_iff] <;> exact fun h => h.2

/-- The content after an exception. -/
theorem upTo_viewK (hL : L.WF) {P : Nat} {c0 : Cont V} {ts : List (Asg V)} (H : List.Forall₂ (Writes L P src c0 ts) ops ts)
    {b : Block V} (hb : View L P b c0) (n : Nat) (u : Option V) :
    ∃ ob, Throwing.upTo src ops n u b = .ok ob ∧ ob.isSome = throws L (ts.map fun t => t.1.2) n ∧
      ∀ b', ob = some b' → b'.size = b.size ∧ View L P b' (afterK c0 (ArrSpec.upTo ts n u)) := by
  have hlen := H.length_eq
  obtain ⟨bf, hf, -⟩ := prefix_view hL H hb ops.length (Nat.le_refl _)
  rw [List.take_length] at hf
  have HK : List.Forall₂ (Kind L) ops (ts.map fun t => t.1.2) := by
    rw [List.forall₂_map_right_iff]
    exact H.imp fun _ _ h => h.kind
  obtain ⟨ob, h1, h2⟩ := upTo_defined HK hf n u
  refine ⟨ob, h1, h2, fun b' e => ?_⟩
  subst e
  unfold Throwing.upTo at h1
  by_cases hn : n < ops.length
  · have hD := H.get (i := n) hn (by omega)
    simp only [List.get_eq_getElem] at hD
    obtain ⟨hi, hc, m, hm, hk, ht, hrun⟩ := hD
    obtain ⟨b1, k1, k2, k3⟩ := prefix_view hL H hb n (by omega)
    have htn : ts[n]? = some ts[n] := List.getElem?_eq_getElem (by omega)
    rw [List.getElem?_eq_getElem hn] at h1
    simp only at h1
    split at h1
    · rw [k1] at h1
      simp only [Except.bind] at h1
      obtain ⟨b2, j1, j2, j3⟩ := assign_view hL k3 hm hk hi (afterK_some hc _)
      have hex : exec src ops[n] b1 = .ok b2 := by
        rw [hrun b1 _ k3 (Reach.take c0 ts n), j1]
      unfold failed at h1
      rw [hex] at h1
      simp only [Except.bind] at h1
      unfold ArrSpec.upTo
      rw [htn]
      cases u with
      | none =>
        have : Except.map some (Except.ok b1 : Except UB (Block V)) = Except.ok (some b') := by
          rw [← h1]; cases ops[n] <;> rfl
        cases this
        simp only [List.append_nil]
        exact ⟨k2, k3⟩
      | some v =>
        obtain ⟨b3, i1, i2, i3⟩ := assign_view hL k3 (t := (ts[n].1, v)) hm hk hi (afterK_some hc _)
        have : Except.map some (b1.assign (slot P (offset L ts[n].1.2.1) m.ty.size ts[n].1.2.2 ts[n].1.1 : Nat) m.ty v) = Except.ok (some b') := by
          rw [← h1]
          revert ht
          cases ops[n] <;> simp only [target, Option.some.injEq, Prod.mk.injEq, reduceCtorEq, false_imp_iff] <;>
            (rintro ⟨rfl, rfl⟩; rfl)
        rw [i1] at this
        cases this
        simp only [afterK_snoc]
        exact ⟨i2.trans k2, i3⟩
    · cases h1
  · rw [List.getElem?_eq_none (by omega)] at h1
    cases h1

theorem upTo_view (hL : L.WF) {P : Nat} {c0 : Nat → Cell V} {ts : List (Asg V)} (H : List.Forall₂ (Writes L P src (cont c0) ts) ops ts)
    {b : Block V} (hb : View L P b (cont c0)) (n : Nat) (u : Option V) :
    ∃ ob, Throwing.upTo src ops n u b = .ok ob ∧ ob.isSome = throws L (ts.map fun t => t.1.2) n ∧
      ∀ b', ob = some b' → b'.size = b.size ∧ View L P b' (cont (afterC c0 (ArrSpec.upTo ts n u))) := by
  rw [← afterK_cont]
  exact upTo_viewK hL H hb n u

/-! ### Lists -/

theorem length_patch (l : List (Cell V)) (ts : List (Asg V)) : (patch l ts).length = l.length := by
  induction ts generalizing l with
  | nil => rfl
  | cons t ts ih =>
    show (patch (l.modify t.1.1 _) ts).length = _
    rw [ih, List.length_modify]

theorem patch_snoc (l : List (Cell V)) (ts : List (Asg V)) (t : Asg V) :
    patch l (ts ++ [t]) = (patch l ts).modify t.1.1 fun c => c.set t.1.2.1 t.1.2.2 t.2 := by
  simp [patch, List.foldl_append]

theorem patch_get {l : List (Cell V)} {c : Nat → Cell V} (h : ∀ i, i < l.length → l[i]? = some (c i)) (ts : List (Asg V)) (i : Nat)
    (hi : i < l.length) : (patch l ts)[i]? = some (afterC c ts i) := by
  induction ts using List.reverseRecOn with
  | nil => exact h i hi
  | append_singleton ts t ih =>
    rw [patch_snoc, afterC_snoc, List.getElem?_modify, ih]
    unfold setC
    by_cases e : t.1.1 = i
    · subst e; simp
    · have : ¬ i = t.1.1 := fun h => e h.symm
      simp [e, this]

theorem objs_eq (L : Layout V) : objs L = (memKeys L).map fun q => (q.1, q.2.2) := objects_eq L

theorem asgStruct_keys (L : Layout V) (i : Nat) (c : Cell V) : (asgStruct L i c).map (fun t => t.1.2) = objs L := by
  simp [asgStruct, Function.comp_def]

theorem asgRow_keys (L : Layout V) (off : Nat) (new : List (Cell V)) : (asgRow L off new).map (fun t => t.1.2) = byObj L new.length := by
  unfold asgRow byObj
  rw [List.map_flatMap]
  congr 1
  funext p
  rw [List.map_map]
  apply List.ext_getElem
  · simp
  · intro i h1 h2; simp

/-! ### The operations of each function -/

theorem setOps_writes (hL : L.WF) {N i : Nat} (hi : i < N) (c0 : Nat → Cell V) (ts : List (Asg V)) (c : Cell V) :
    List.Forall₂ (Writes L (dim N).prod src (cont c0) ts) (setOps L (acc N (i : Nat)) c) (asgStruct L i c) := by
  unfold setOps asgStruct
  rw [objs_eq]
  refine forall2_map fun q hq => ?_
  obtain ⟨hm, hk⟩ := mem_memKeys hq
  have h := setOp_range hL (A := acc N (i : Nat)) (accAt_At _ _) hq
  exact ⟨by rw [prod_dim]; exact hi, rfl, q.2.1, hm, hk, congrArg (fun a => some (a, _)) h, fun b _ _ _ => congrArg (fun a => b.assign a _ _) h⟩

theorem row_forall2 {α β γ : Type} {P : β → γ → Prop} (new : List α) (f : Nat → β) (g : α × Nat → γ)
    (h : ∀ (i : Nat) (hi : i < new.length), P (f i) (g (new[i], i))) :
    List.Forall₂ P ((List.range new.length).map f) (new.zipIdx.map g) := by
  rw [List.forall₂_iff_get]
  refine ⟨by simp, fun i h1 h2 => ?_⟩
  simp only [List.get_eq_getElem, List.getElem_map, List.getElem_range, List.getElem_zipIdx, Nat.zero_add]
  exact h i (by simpa using h1)

theorem copyList_writes (hL : L.WF) {N M : Nat} (new : List (Cell V)) (hN : new.length ≤ N) (c0 : Nat → Cell V) (ts : List (Asg V))
    (hsrc : ∀ b c, View L (dim N).prod b c → Reach (cont c0) ts c → ∀ r m k i (hi : i < new.length), L[r]? = some m → k < m.elems →
      (src b).read (slot (dim M).prod (offset L r) m.ty.size k i : Nat) m.ty = .ok (new[i] r k)) :
    List.Forall₂ (Writes L (dim N).prod src (cont c0) ts) (copyList L N M new.length) (asgRow L 0 new) := by
  unfold copyList asgRow
  rw [objs_eq]
  refine forall2_flatMap fun q hq => row_forall2 new _ _ fun i hi => ?_
  obtain ⟨hm, hk⟩ := mem_memKeys hq
  have hpos := hL.elems_pos hm
  have hop : copyOp L (acc N 0) (acc M 0) q i = .copy (slot (dim M).prod (offset L q.1) q.2.1.ty.size q.2.2 i : Nat)
      (slot (dim N).prod (offset L q.1) q.2.1.ty.size q.2.2 i : Nat) q.2.1.ty := by
    unfold copyOp
    cases ha : q.2.1.arity with
    | none =>
      have h0 : q.2.2 = 0 := by rw [elems_none ha] at hk; omega
      have h1 := Acc.member_row_slot L (A := acc N 0) (accAt_At _ 0) q.1 q.2.1 i hpos
      have h2 := Acc.member_row_slot L (A := acc M 0) (accAt_At _ 0) q.1 q.2.1 i hpos
      rw [Nat.zero_add] at h1 h2
      simp only [h0]
      rw [h1, h2]; rfl
    | some _ =>
      have h1 := Acc.arrayRef_row_slot L (A := acc N 0) (accAt_At _ 0) q.1 q.2.1 q.2.2 i hpos
      have h2 := Acc.arrayRef_row_slot L (A := acc M 0) (accAt_At _ 0) q.1 q.2.1 q.2.2 i hpos
      rw [Nat.zero_add] at h1 h2
      simp only
      rw [h1, h2]; rfl
  rw [hop]
  refine ⟨by rw [prod_dim]; show 0 + i < N; omega, rfl, q.2.1, hm, hk, ?_, fun b c hb hR => ?_⟩
  · show some _ = some _; rw [Nat.zero_add]
  · show ((src b).read _ _).bind _ = _
    rw [hsrc b c hb hR _ _ _ i hi hm hk, Nat.zero_add]
    rfl

theorem loadList_writes (hL : L.WF) {N M j off : Nat} (hint : N < 2 ^ 31) (new : List (Cell V)) (hN : off + new.length ≤ N)
    (c0 : Nat → Cell V) (ts : List (Asg V))
    (hsrc : ∀ b c, View L (dim N).prod b c → Reach (cont c0) ts c → ∀ r m k i (hi : i < new.length), L[r]? = some m → k < m.elems →
      (src b).read (slot M (offset L r) m.ty.size k (j + i) : Nat) m.ty = .ok (new[i] r k)) :
    List.Forall₂ (Writes L (dim N).prod src (cont c0) ts) (loadList L N off M j new.length) (asgRow L off new) := by
  unfold loadList asgRow
  rw [objs_eq]
  refine forall2_flatMap fun q hq => row_forall2 new _ _ fun i hi => ?_
  obtain ⟨hm, hk⟩ := mem_memKeys hq
  have hpos := hL.elems_pos hm
  have hacc : accSz N off = acc N (off : Nat) := by unfold accSz; rw [toInt32_small (by omega)]
  have hop : loadOp L (accSz N off) j M q i = .copy (slot M (offset L q.1) q.2.1.ty.size q.2.2 (j + i) : Nat)
      (slot (dim N).prod (offset L q.1) q.2.1.ty.size q.2.2 (off + i) : Nat) q.2.1.ty := by
    rw [hacc]
    unfold loadOp
    cases ha : q.2.1.arity with
    | none =>
      have h0 : q.2.2 = 0 := by rw [elems_none ha] at hk; omega
      simp only [h0]
      rw [Acc.member_row_slot L (A := acc N (off : Nat)) (accAt_At _ _) q.1 q.2.1 i hpos, Acc.raw_slot]
      rfl
    | some _ =>
      simp only
      rw [Acc.arrayRef_plane_row_slot L (A := acc N (off : Nat)) (accAt_At _ _) q.1 q.2.1 q.2.2 i hpos, Acc.raw_plane_slot]
      rfl
  rw [hop]
  refine ⟨by rw [prod_dim]; show off + i < N; omega, rfl, q.2.1, hm, hk, rfl, fun b c hb hR => ?_⟩
  show ((src b).read _ _).bind _ = _
  rw [hsrc b c hb hR _ _ _ i hi hm hk]
  rfl

theorem constructList_kind (L : Layout V) (N : Nat) : List.Forall₂ (Kind L) (constructList L N) (byStruct L N) := by
  unfold constructList byStruct constructOps
  refine forall2_flatMap' fun i _ => ?_
  rw [objs_eq, List.forall₂_map_left_iff, List.forall₂_map_right_iff, List.forall₂_same]
  exact fun q hq => ⟨q.2.1, (mem_memKeys hq).1, rfl⟩

theorem fillList_kind (L : Layout V) (N n : Nat) (v : Cell V) : List.Forall₂ (Kind L) (fillList L N n v) (byStruct L n) := by
  unfold fillList byStruct setOps
  refine forall2_flatMap' fun i _ => ?_
  rw [objs_eq, List.forall₂_map_left_iff, List.forall₂_map_right_iff, List.forall₂_same]
  exact fun q hq => ⟨q.2.1, (mem_memKeys hq).1, rfl⟩

theorem copyList_kind (L : Layout V) (N M m : Nat) : List.Forall₂ (Kind L) (copyList L N M m) (byObj L m) := by
  unfold copyList byObj
  rw [objs_eq]
  refine forall2_flatMap fun q hq => ?_
  rw [List.forall₂_iff_get]
  refine ⟨by simp, fun i h1 h2 => ?_⟩
  simp only [List.get_eq_getElem, List.getElem_map, List.getElem_range, List.getElem_replicate]
  refine ⟨q.2.1, (mem_memKeys hq).1, ?_⟩
  unfold copyOp
  cases q.2.1.arity <;> rfl

/-! The lists are what the functions do. -/

theorem setOps_run' (L : Layout V) (A : Acc) (c : Cell V) (b : Block V) : A.setCell L c b = runL (exec src) (setOps L A c) b := by
  rw [setOps_run L A c b b]
  refine (runL_exec src ?_ b b).symm
  intro o ho sa A ty
  unfold setOps at ho
  rw [List.mem_map] at ho
  obtain ⟨q, -, rfl⟩ := ho
  simp

theorem constructOps_run' (L : Layout V) (A : Acc) (b : Block V) : A.constructMembers L b = runL (exec src) (constructOps L A) b := by
  rw [constructOps_run L A b b]
  refine (runL_exec src ?_ b b).symm
  intro o ho sa A ty
  unfold constructOps at ho
  rw [List.mem_map] at ho
  obtain ⟨q, -, rfl⟩ := ho
  simp

theorem fillList_run (L : Layout V) (N n : Nat) (v : Cell V) (b : Block V) :
    walk n 0 (fun _ idx b => (acc N idx).setCell L v b) b = runL (exec src) (fillList L N n v) b := by
  rw [walk_eq]
  refine loopM_runL (fun i _ b => ?_) b
  rw [Int.zero_add]
  exact setOps_run' L _ v b

theorem constructList_run (L : Layout V) (N : Nat) :
    constructAll L N = runL (exec src) (constructList L N) (Block.fresh (aggSize L * N)) := by
  unfold constructAll
  rw [walk_eq]
  refine loopM_runL (fun i _ b => ?_) _
  rw [Int.zero_add]
  exact constructOps_run' L _ b

theorem copyList_run (L : Layout V) (N M m : Nat) (b : Block V) :
    (acc N 0).copyMembers L (acc M 0) src m b = runL (exec src) (copyList L N M m) b := by
  unfold Acc.copyMembers copyList
  refine members_runL L (fun r m s ha => ?_) (fun r m n s ha => ?_) b
  · simp only [ha]
    rw [map_eq_flatMap]
    exact loopM_runL (fun i _ s => by rw [runL_one]; simp only [copyOp, ha]; rfl) s
  · simp only [ha]
    refine loopM_runL (fun k _ s => ?_) s
    rw [map_eq_flatMap]
    exact loopM_runL (fun i _ s => by rw [runL_one]; simp only [copyOp, ha]; rfl) s

theorem loadList_run (L : Layout V) (N off M j num : Nat) (b : Block V) :
    (accSz N off).loadRaw L src num j M b = runL (exec src) (loadList L N off M j num) b := by
  unfold Acc.loadRaw loadList
  refine members_runL L (fun r m s ha => ?_) (fun r m n s ha => ?_) b
  · simp only [ha]
    rw [map_eq_flatMap]
    exact loopM_runL (fun i _ s => by rw [runL_one]; simp only [loadOp, ha]; rfl) s
  · simp only [ha]
    refine loopM_runL (fun k _ s => ?_) s
    rw [map_eq_flatMap]
    exact loopM_runL (fun i _ s => by rw [runL_one]; simp only [loadOp, ha]; rfl) s

/-! ### Operations -/

/-- The array after assignments to its elements. -/
theorem rep_patch {a : SArr V} {N : Nat} {l : List (Cell V)} (h : Rep L a N l) {c : Nat → Cell V}
    (hc : ∀ i, i < l.length → l[i]? = some (c i)) {ts : List (Asg V)} {b : Block V} (hs : b.size = a.data.size)
    (hb : View L (dim N).prod b (cont (afterC c ts))) : Rep L { a with data := b } N (patch l ts) :=
  ⟨h.cap, by rw [length_patch]; exact h.len, by rw [length_patch]; exact h.fits, h.int, hs.trans h.size, _, hb,
    fun i hi => patch_get hc ts i (by rwa [length_patch] at hi)⟩

/-- The array after assignments behind its last element. -/
theorem rep_behind {a : SArr V} {N : Nat} {l : List (Cell V)} (h : Rep L a N l) {c : Nat → Cell V}
    (hc : ∀ i, i < l.length → l[i]? = some (c i)) {ts : List (Asg V)} (hts : ∀ t ∈ ts, l.length ≤ t.1.1) {b : Block V}
    (hs : b.size = a.data.size) (hb : View L (dim N).prod b (cont (afterC c ts))) : Rep L { a with data := b } N l :=
  ⟨h.cap, h.len, h.fits, h.int, hs.trans h.size, _, hb, fun i hi => by
    rw [afterC_other fun t ht => by have := hts t ht; omega]; exact hc i hi⟩

theorem mem_upTo {ts : List (Asg V)} {t : Asg V} (h : t ∈ ArrSpec.upTo ts n u) : ∃ t' ∈ ts, t.1 = t'.1 := by
  unfold ArrSpec.upTo at h
  rw [List.mem_append] at h
  rcases h with h | h
  · exact ⟨t, List.mem_of_mem_take h, rfl⟩
  · split at h
    · rename_i t' v h1
      rw [List.mem_singleton] at h
      subst h
      exact ⟨t', List.mem_of_getElem? h1, rfl⟩
    · cases h

/-- Outcomes of a program and of its specification correspond. -/
def Agree (L : Layout V) (r : Option (ArrWorld V)) (σ : Option (State V)) : Prop :=
  match r, σ with
  | none, none => True
  | some w, some σ => ArrR L w σ
  | _, _ => False

theorem self_eq {σ : State V} {s : Nat} {x : Nat × List (Cell V)} (h : σ s = some x) : ArrWorld.upd σ s (some x) = σ := by
  funext t
  unfold ArrWorld.upd
  split
  · rename_i e; rw [e, h]
  · rfl

theorem wr_agree {w : ArrWorld V} {σ : State V} (hR : ArrR L w σ) {s N : Nat} {a : SArr V} {l' : List (Cell V)} {r : Except UB (Option (Block V))}
    {ob : Option (Block V)} (hr : r = .ok ob) {t : Bool} (ht : ob.isSome = t) (hrep : ∀ b, ob = some b → Rep L { a with data := b } N l') :
    ∃ r', step.wr w s a r = .ok r' ∧ Agree L r' (if t then some (ArrWorld.upd σ s (some (N, l'))) else none) := by
  subst hr
  refine ⟨_, rfl, ?_⟩
  cases ob with
  | none => subst ht; exact trivial
  | some b => subst ht; exact hR.upd (hrep b rfl)

theorem mem_asgRow {off : Nat} {new : List (Cell V)} {t : Asg V} (h : t ∈ asgRow L off new) :
    ∃ (i : Nat) (hi : i < new.length), t.1.1 = off + i ∧ t.2 = new[i] t.1.2.1 t.1.2.2 := by
  unfold asgRow at h
  simp only [List.mem_flatMap, List.mem_map] at h
  obtain ⟨p, -, q, hq, rfl⟩ := h
  obtain ⟨c, i⟩ := q
  have h1 := List.mem_zipIdx hq
  refine ⟨i, by omega, rfl, ?_⟩
  have := h1.2.2
  simp only [Nat.sub_zero] at this
  exact congrFun (congrFun this p.1) p.2

/-- Values read from the source. -/
theorem src_read (hL : L.WF) {s t N M : Nat} {l l' : List (Cell V)} {σ : State V} (hs : σ s = some (N, l)) (ht : σ t = some (M, l'))
    {o : SArr V} (hreps : Rep L o M l') {c0 : Nat → Cell V}
    (hcs : ∀ i, i < l.length → l[i]? = some (c0 i)) {ts : List (Asg V)} {j : Nat} {new : List (Cell V)} (hnew : ∀ i, i < new.length → new[i]? = l'[j + i]?)
    (hj : j + new.length ≤ l'.length)
    (hself : s = t → ∀ x ∈ ts, ∀ i, i < new.length → x.1.1 = j + i → x.2 = c0 (j + i) x.1.2.1 x.1.2.2)
    (b : Block V) (c : Cont V) (hb : View L (dim N).prod b c) (hR : Reach (cont c0) ts c) (r : Nat) (m : Member V) (k i : Nat)
    (hi : i < new.length) (hm : L[r]? = some m) (hk : k < m.elems) :
    (ArrWorld.srcOf s t o b).read (slot (dim M).prod (offset L r) m.ty.size k (j + i) : Nat) m.ty = .ok (new[i] r k) := by
  have hn := hnew i hi
  rw [List.getElem?_eq_getElem hi, List.getElem?_eq_getElem (by omega)] at hn
  injection hn with hn
  unfold ArrWorld.srcOf
  by_cases e : s = t
  · subst e
    rw [if_pos rfl]
    rw [hs] at ht; cases ht
    have hv : c r k (j + i) = some (new[i] r k) := by
      have h0 := hcs (j + i) (by omega)
      rw [List.getElem?_eq_getElem (by omega)] at h0
      injection h0 with h0
      rcases hR (j + i) r k with h | ⟨x, h1, h2, h3⟩
      · rw [h]; show some _ = _; rw [← h0, hn]
      · rw [h3, hself rfl x h1 i hi (by rw [h2]), h2, hn, h0]
    exact hb.read hL hm hk (by rw [prod_dim]; have := hreps.fits; omega) hv
  · rw [if_neg e]
    obtain ⟨h1, h2, h3, h4, h5, cs, hv, hc⟩ := hreps
    have h0 := hc (j + i) (by omega)
    rw [List.getElem?_eq_getElem (by omega)] at h0
    injection h0 with h0
    exact hv.read hL hm hk (by rw [prod_dim]; omega) (by show some _ = _; rw [hn, h0])

theorem load_agree (hL : L.WF) {w : ArrWorld V} {σ : State V} (hR : ArrR L w σ) {s t N M j num off : Nat} {l l' : List (Cell V)} (hs : σ s = some (N, l))
    (ht : σ t = some (M, l')) {a o : SArr V} (hrep : Rep L a N l) (hreps : Rep L o M l')
    (hself : s = t → j + num ≤ off ∨ off + num ≤ j) {r : Option (List (Cell V))} (h : failLoad L N l l' j num off n u = some r) :
    ∃ r', step.load L w n u s t a o j num off = .ok r' ∧ Agree L r' (r.map fun l'' => ArrWorld.upd σ s (some (N, l''))) ∧
      (off = l.length → Agree L r' (r.map fun _ => σ)) := by
  unfold failLoad at h
  split at h
  · rename_i hc
    obtain ⟨h1, h2, h3⟩ := hc
    have hrep' := hrep
    obtain ⟨q1, q2, q3, q4, q5, c0, q6, q7⟩ := hrep'
    have hmod : (num + off) % 2 ^ 64 = num + off := Nat.mod_eq_of_lt h3
    simp only [step.load]
    rw [hmod]
    by_cases hle : num + off ≤ N
    · rw [if_neg (by omega)]
      let new := (l'.drop j).take num
      have hlen : new.length = num := by simp [new]; omega
      have hnew : ∀ i, i < new.length → new[i]? = l'[j + i]? := by
        intro i hi
        simp only [new]
        rw [List.getElem?_take, if_pos (by omega), List.getElem?_drop]
      have hread := fun b c hb hr r m k i hi hm hk => src_read hL hs ht hreps q7 (ts := asgRow L off new) hnew (by omega) (fun e x hx i hi hxi => by
        obtain ⟨i', hi', p1, p2⟩ := mem_asgRow hx
        have := hself e
        omega) b c hb hr r m k i hi hm hk
      have hdim : (dim M).prod = M := prod_dim M
      rw [hdim] at hread
      obtain ⟨ob, k1, k2, k3⟩ := upTo_view hL (loadList_writes hL q4 new (by omega) c0 (asgRow L off new) hread) q6 n u
      rw [asgRow_keys, hlen] at k2
      rw [hlen] at k1
      have hcap := hreps.cap
      rw [q1, hcap]
      obtain ⟨r1, m1, m2⟩ := wr_agree hR (s := s) (N := N) (a := a) (l' := patch l (ArrSpec.upTo (asgRow L off new) n u)) k1 k2
        fun b hb => rep_patch hrep q7 (k3 b hb).1 (k3 b hb).2
      refine ⟨r1, m1, ?_, fun hoff => ?_⟩
      · split at h
        · rename_i hthr
          cases h
          rw [hthr.2] at m2
          exact m2
        · rename_i hthr
          cases h
          have : throws L (byObj L num) n = false := by
            cases ht : throws L (byObj L num) n with
            | true => exact absurd ⟨hle, ht⟩ hthr
            | false => rfl
          rw [this] at m2
          exact m2
      · obtain ⟨r2, n1, n2⟩ := wr_agree hR (s := s) (N := N) (a := a) (l' := l) k1 k2 fun b hb => rep_behind hrep q7 (fun t ht => by
          obtain ⟨t', e1, e2⟩ := mem_upTo ht
          obtain ⟨i', -, p1, -⟩ := mem_asgRow e1
          rw [e2]; omega) (k3 b hb).1 (k3 b hb).2
        rw [m1] at n1
        cases n1
        rw [self_eq hs] at n2
        split at h
        · rename_i hthr
          cases h
          rw [hthr.2] at n2
          exact n2
        · rename_i hthr
          cases h
          have : throws L (byObj L num) n = false := by
            cases ht : throws L (byObj L num) n with
            | true => exact absurd ⟨hle, ht⟩ hthr
            | false => rfl
          rw [this] at n2
          exact n2
    · rw [if_pos (by omega)]
      rw [if_neg (fun h => hle h.1)] at h
      cases h
      exact ⟨none, rfl, trivial, fun _ => trivial⟩
  · cases h

theorem throws_keys (L : Layout V) (num n : Nat) : throws L (byStruct L num) n =
    match ((List.range num).flatMap fun _ => memKeys L)[n]? with
    | some q => !q.2.1.ty.triv
    | none => false := by
  have e : byStruct L num = ((List.range num).flatMap fun _ => memKeys L).map fun q => (q.1, q.2.2) := by
    unfold byStruct
    rw [objs_eq, List.map_flatMap]
  unfold throws
  rw [e, List.getElem?_map]
  cases hq : ((List.range num).flatMap fun _ => memKeys L)[n]? with
  | none => rfl
  | some q =>
    have hmem := List.mem_of_getElem? hq
    rw [List.mem_flatMap] at hmem
    obtain ⟨_, -, hmem⟩ := hmem
    simp only [Option.map_some, (mem_memKeys hmem).1]

theorem byStruct_one (L : Layout V) : byStruct L 1 = objs L := by simp [byStruct]

theorem observed_agree (hL : L.WF) (dv : V) {w : ArrWorld V} {σ σ' : State V} (hR : ArrR L w σ) {op : ArrOp V} {out : ArrOut V}
    (h : ArrSpec.step L σ op = some (σ', out)) (num : Nat) :
    ∃ r', step.observed L w n (w.step L op) num = .ok r' ∧ Agree L r' (if throws L (byStruct L num) n then some σ else none) := by
  obtain ⟨w', h1, -⟩ := arr_step_refines hL dv hR h
  rw [h1, throws_keys]
  refine ⟨_, rfl, ?_⟩
  cases ((List.range num).flatMap fun _ => memKeys L)[n]? with
  | none => exact trivial
  | some q =>
    obtain ⟨q1, ⟨⟨sz, tr⟩, ar, df⟩, q3⟩ := q
    cases tr with
    | true => exact trivial
    | false => exact hR

theorem lost_agree {w : ArrWorld V} {σ : State V} (hR : ArrR L w σ) {ops : List (MemOp V)} {ks : List (Nat × Nat)}
    (H : List.Forall₂ (Kind L) ops ks) {b b' : Block V} (h : runL (exec src) ops b = .ok b') (n : Nat) (u : Option V) :
    ∃ r', step.lost w (Throwing.upTo src ops n u b) = .ok r' ∧ Agree L r' (if throws L ks n then some σ else none) := by
  obtain ⟨ob, h1, h2⟩ := upTo_defined H h n u
  rw [h1, ← h2]
  refine ⟨_, rfl, ?_⟩
  cases ob with
  | none => exact trivial
  | some b => exact hR

theorem fail_refines (hL : L.WF) (dv : V) {w : ArrWorld V} {σ : State V} (hR : ArrR L w σ) (n : Nat) (u : Option V) {op : ArrOp V}
    {r : Option (State V)} (h : fail L σ n u op = some r) : ∃ r', step L w n u op = .ok r' ∧ Agree L r' r := by
  cases op with
  | set s i c =>
    simp only [fail] at h
    split at h
    · rename_i N l hs
      split at h
      · rename_i hi
        obtain ⟨h0, hi⟩ := hi
        cases h
        obtain ⟨a, ha, hrep⟩ := hR.arr hs
        have hrep' := hrep
        obtain ⟨hc, hl, hf, hint, hsz, c0, hv, hcs⟩ := hrep'
        obtain ⟨j, rfl⟩ := Int.eq_ofNat_of_zero_le h0
        obtain ⟨ob, k1, k2, k3⟩ := upTo_view (src := fun b => b) hL (setOps_writes hL (show j < N by omega) c0 (asgStruct L j c) c) hv n u
        rw [asgStruct_keys] at k2
        simp only [step, step.withA, ha, hc]
        exact wr_agree hR k1 k2 fun b hb => rep_patch hrep hcs (k3 b hb).1 (k3 b hb).2
      · cases h
    · cases h
  | poke s i r k v =>
    simp only [fail] at h
    split at h
    · rename_i N l m hs hm
      split at h
      · cases h
      · rename_i hi
        cases h
        obtain ⟨a, ha, hrep⟩ := hR.arr hs
        have hrep' := hrep
        obtain ⟨hc, hl, hf, hint, hsz, c0, hv, hcs⟩ := hrep'
        obtain ⟨j, rfl⟩ := Int.eq_ofNat_of_zero_le (show 0 ≤ i by omega)
        have hk : k < m.elems := by omega
        have hW : List.Forall₂ (Writes L (dim N).prod (fun b => b) (cont c0) [((j, r, k), v)])
            [MemOp.assign ((acc N (j : Nat)).arrayRef L r m k) m.ty v] [((j, r, k), v)] := by
          refine .cons ⟨by rw [prod_dim]; show j < N; omega, rfl, m, hm, hk, ?_, fun b c _ _ => ?_⟩ .nil
          · show some _ = some _
            rw [Acc.arrayRef_slot L (A := acc N (j : Nat)) (accAt_At _ _) r m k (hL.elems_pos hm)]
            rfl
          · show b.assign _ _ _ = _
            rw [Acc.arrayRef_slot L (A := acc N (j : Nat)) (accAt_At _ _) r m k (hL.elems_pos hm)]
            rfl
        obtain ⟨ob, k1, k2, k3⟩ := upTo_view hL hW hv n u
        simp only [step, step.withA, ha, hm, hc]
        exact wr_agree hR k1 k2 fun b hb => rep_patch hrep hcs (k3 b hb).1 (k3 b hb).2
    · cases h
  | push s c =>
    simp only [fail] at h
    split at h
    · rename_i N l hs
      cases h
      obtain ⟨a, ha, hrep⟩ := hR.arr hs
      have hrep' := hrep
      obtain ⟨hc, hl, hf, hint, hsz, c0, hv, hcs⟩ := hrep'
      simp only [step, step.withA, ha]
      by_cases hlt : l.length < N
      · rw [if_neg (by omega)]
        have hacc : accSz a.N a.n = acc N ((l.length : Nat) : Int) := by
          unfold accSz; rw [hl, toInt32_small (by omega), hc]
        rw [hacc]
        obtain ⟨ob, k1, k2, k3⟩ := upTo_view (src := fun b => b) hL (setOps_writes hL hlt c0 (asgStruct L l.length c) c) hv n u
        rw [asgStruct_keys] at k2
        obtain ⟨r', m1, m2⟩ := wr_agree hR (s := s) (N := N) (a := a) (l' := l) k1 k2 fun b hb => rep_behind hrep hcs (fun t ht => by
          obtain ⟨t', e1, e2⟩ := mem_upTo ht
          unfold asgStruct at e1
          rw [List.mem_map] at e1
          obtain ⟨p, -, rfl⟩ := e1
          rw [e2]) (k3 b hb).1 (k3 b hb).2
        rw [self_eq hs] at m2
        refine ⟨r', m1, ?_⟩
        simp only [hlt, true_and]
        exact m2
      · rw [if_pos (by omega)]
        simp only [hlt, false_and, if_false]
        exact ⟨none, rfl, trivial⟩
    · cases h
  | load s t j num off =>
    simp only [fail] at h
    split at h
    · rename_i N l M l' hs ht
      split at h
      · rename_i hself
        obtain ⟨a, ha, hrep⟩ := hR.arr hs
        obtain ⟨o, ho, hreps⟩ := hR.arr ht
        rw [Option.map_eq_some_iff] at h
        obtain ⟨r0, h1, h2⟩ := h
        obtain ⟨r', m1, m2, -⟩ := load_agree hL hR hs ht hrep hreps hself h1
        subst h2
        simp only [step, step.withA, ha, ho]
        exact ⟨r', m1, m2⟩
      · cases h
    · cases h
  | append s t j num =>
    simp only [fail] at h
    split at h
    · rename_i N l M l' hs ht
      obtain ⟨a, ha, hrep⟩ := hR.arr hs
      obtain ⟨o, ho, hreps⟩ := hR.arr ht
      rw [Option.map_eq_some_iff] at h
      obtain ⟨r0, h1, h2⟩ := h
      have hself : s = t → j + num ≤ l.length ∨ l.length + num ≤ j := by
        intro e; subst e
        rw [hs] at ht; cases ht
        unfold failLoad at h1
        split at h1
        · left; omega
        · cases h1
      obtain ⟨r', m1, -, m2⟩ := load_agree hL hR hs ht hrep hreps hself h1
      subst h2
      simp only [step, step.withA, ha, ho, hrep.len]
      exact ⟨r', m1, m2 rfl⟩
    · cases h
  | assign s t cst =>
    simp only [fail] at h
    split at h
    · rename_i N l M l' hs ht
      split at h
      · obtain ⟨a, ha, hrep⟩ := hR.arr hs
        obtain ⟨o, ho, hreps⟩ := hR.arr ht
        simp only [step, step.withA, ha, ho, hrep.cap, hreps.cap, hreps.len]
        split at h
        · rename_i hcst
          cases h
          rw [if_pos hcst]
          exact ⟨none, rfl, trivial⟩
        · rename_i hcst
          rw [if_neg hcst]
          have hrep' := hrep
          obtain ⟨q1, q2, q3, q4, q5, c0, q6, q7⟩ := hrep'
          by_cases hle : l'.length ≤ N
          · rw [if_neg (by omega)]
            have hread := fun b c hb hr r m k i hi hm hk => src_read hL hs ht hreps q7 (ts := asgRow L 0 l') (j := 0) (new := l')
              (fun i _ => by rw [Nat.zero_add]) (by omega) (fun e x hx i hi hxi => by
                subst e
                rw [hs] at ht; cases ht
                obtain ⟨i', hi', p1, p2⟩ := mem_asgRow hx
                have : i' = i := by omega
                subst this
                have h0 := q7 i' hi
                rw [List.getElem?_eq_getElem hi] at h0
                injection h0 with h0
                rw [p2, h0, Nat.zero_add]) b c hb hr r m k i hi hm hk
            simp only [Nat.zero_add] at hread
            obtain ⟨ob, k1, k2, k3⟩ := upTo_view hL (copyList_writes hL l' hle c0 (asgRow L 0 l') hread) q6 n u
            rw [asgRow_keys] at k2
            obtain ⟨r', m1, m2⟩ := wr_agree hR (s := s) (N := N) (a := a) (l' := patch l (ArrSpec.upTo (asgRow L 0 l') n u)) k1 k2
              fun b hb => rep_patch hrep q7 (k3 b hb).1 (k3 b hb).2
            refine ⟨r', m1, ?_⟩
            split at h
            · rename_i hthr
              cases h
              rw [hthr.2] at m2
              exact m2
            · rename_i hthr
              cases h
              have : throws L (byObj L l'.length) n = false := by
                cases ht : throws L (byObj L l'.length) n with
                | true => exact absurd ⟨hle, ht⟩ hthr
                | false => rfl
              rw [this] at m2
              exact m2
          · rw [if_pos (by omega)]
            rw [if_neg (fun h => hle h.1)] at h
            cases h
            exact ⟨none, rfl, trivial⟩
      · cases h
    · cases h
  | new s N k v =>
    simp only [fail] at h
    split at h
    · cases h
    · rename_i hs
      split at h
      · rename_i hk
        cases h
        simp only [step, hR.absent hs]
        rw [toInt32_small (by omega), Int.toNat_natCast]
        obtain ⟨b, c1, c2, c3⟩ := constructAll_ok hL dv N
        obtain ⟨b', d1, -⟩ := fill_ok hL hk.1 c3 v
        refine lost_agree hR (List.rel_append (constructList_kind L N) (fillList_kind L N k v)) (b' := b') ?_ n u
        rw [runL_append, ← constructList_run, c1]
        show runL _ _ b = _
        rw [← fillList_run, d1]
      · cases h
  | copy s N t cst =>
    simp only [fail] at h
    split at h
    · rename_i M l hs ht
      split at h
      · obtain ⟨o, ho, hreps⟩ := hR.arr ht
        simp only [step, step.withA, hR.absent hs, ho, hreps.cap, hreps.len]
        split at h
        · rename_i hcst
          cases h
          rw [if_pos hcst]
          exact ⟨none, rfl, trivial⟩
        · rename_i hcst
          cases h
          rw [if_neg hcst]
          obtain ⟨b, c1, c2, c3⟩ := constructAll_ok hL dv N
          by_cases hle : l.length ≤ N
          · rw [if_neg (by omega), if_pos hle]
            obtain ⟨h1, h2, h3, h4, h5, cs, hv, hc⟩ := hreps
            obtain ⟨b', d1, -⟩ := copyMembers_ok hL hle h3 c3 (.inl ⟨o.data, rfl, hv⟩)
            refine lost_agree hR (List.rel_append (constructList_kind L N) (copyList_kind L N M l.length)) (b' := b') ?_ n u
            rw [runL_append, ← constructList_run, c1]
            show runL _ _ b = _
            rw [← copyList_run, d1]
          · rw [if_pos (by omega), if_neg hle]
            rw [List.append_nil, List.append_nil]
            refine lost_agree hR (constructList_kind L N) (b' := b) ?_ n u
            rw [← constructList_run, c1]
      · cases h
    · cases h
  | get s i t =>
    simp only [fail] at h
    rw [Option.map_eq_some_iff] at h
    obtain ⟨⟨σ', out⟩, h1, h2⟩ := h
    subst h2
    obtain ⟨r', m1, m2⟩ := observed_agree (n := n) hL dv hR h1 1
    rw [byStruct_one] at m2
    exact ⟨r', m1, m2⟩
  | back s t =>
    simp only [fail] at h
    rw [Option.map_eq_some_iff] at h
    obtain ⟨⟨σ', out⟩, h1, h2⟩ := h
    subst h2
    obtain ⟨r', m1, m2⟩ := observed_agree (n := n) hL dv hR h1 1
    rw [byStruct_one] at m2
    exact ⟨r', m1, m2⟩
  | iter s t =>
    simp only [fail] at h
    split at h
    · rename_i N l hs
      rw [Option.map_eq_some_iff] at h
      obtain ⟨⟨σ', out⟩, h1, h2⟩ := h
      subst h2
      obtain ⟨a, ha, hrep⟩ := hR.arr hs
      obtain ⟨r', m1, m2⟩ := observed_agree (n := n) hL dv hR h1 l.length
      refine ⟨r', ?_, m2⟩
      simp only [step, step.withA, ha, hrep.len]
      exact m1
    · cases h
  | _ =>
    cases h
    exact ⟨none, rfl, trivial⟩

end Arr
end Throwing
end LFA
