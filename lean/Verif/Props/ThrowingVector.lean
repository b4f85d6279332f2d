import Verif.ThrowingVectorRefine
import Verif.Props.SoaVector
import Verif.Props.ThrowingArray
import Verif.Props.Throwing

/-
  C68: soa_vectors whose members throw.
-/
set_option linter.unusedSectionVars false
set_option linter.unusedVariables false
namespace LFA.Props
open LFA LFA.Throwing

section
variable {V : Type} [DecidableEq V] {C : Cfg V} {dv : V}

/-! ### Programs in which members throw -/

theorem vec_throw_run_refines (hL : C.L.WF) (h1 : OneD C.tr) (dv : V) (ops : List (VecOp V × Option (Nat × Option V))) {w : VecWorld V}
    {σ σ' : VecSpec.State V} (hR : VR C w σ) {outs : List (Option (ArrOut V))} (h : VecSpec.runFail C dv σ ops = some (σ', outs)) :
    ∃ w', Vec.run C w ops = .ok (w', outs) ∧ VR C w' σ' := by
  induction ops generalizing w σ outs with
  | nil =>
    simp only [VecSpec.runFail] at h
    cases h
    exact ⟨w, rfl, hR⟩
  | cons p ops ih =>
    obtain ⟨op, f⟩ := p
    have go : ∀ (r : Option (VecSpec.State V)), VecSpec.runFail.thrown C dv σ op f = some r →
        ∃ r', Vec.run.thrown C w op f = .ok r' ∧ Vec.VAgree C r' r := by
      intro r hr
      cases f with
      | none => cases hr; exact ⟨none, rfl, trivial⟩
      | some q => exact Vec.vfail_refines hL h1 dv hR op q.1 q.2 hr
    simp only [VecSpec.runFail] at h
    cases hf : VecSpec.runFail.thrown C dv σ op f with
    | none => rw [hf] at h; cases h
    | some r =>
      obtain ⟨r', hr', ha⟩ := go r hf
      rw [hf] at h
      cases r with
      | some σ1 =>
        cases r' with
        | none => exact absurd ha id
        | some w1 =>
          simp only at h
          cases hrun : VecSpec.runFail C dv σ1 ops with
          | none => rw [hrun] at h; cases h
          | some q =>
            rw [hrun] at h
            cases h
            obtain ⟨w2, k1, k2⟩ := ih ha hrun
            exact ⟨w2, by simp only [Vec.run, hr', k1]; rfl, k2⟩
      | none =>
        cases r' with
        | some w1 => exact absurd ha id
        | none =>
          simp only at h
          cases hst : VecSpec.step C dv σ op with
          | none => rw [hst] at h; cases h
          | some q =>
            obtain ⟨σ1, out⟩ := q
            rw [hst] at h
            simp only at h
            obtain ⟨w1, j1, j2⟩ := vec_step_refines hL h1 dv hR op hst
            cases hrun : VecSpec.runFail C dv σ1 ops with
            | none => rw [hrun] at h; cases h
            | some q =>
              rw [hrun] at h
              cases h
              obtain ⟨w2, k1, k2⟩ := ih j2 hrun
              exact ⟨w2, by simp only [Vec.run, hr', j1, k1]; rfl, k2⟩

/-- C68: a program which catches the exceptions of members and goes on does not run into undefined behaviour, observes what it would
    observe of vectors to which only the assignments before the exceptions have been applied (`VecSpec.fail`), and when it ends, all
    memory belongs to vectors. Missing in comparison with C68: exceptions out of constructors of members. -/
theorem C68_vector_history_partial (hL : C.L.WF) (h1 : OneD C.tr) {ops : List (VecOp V × Option (Nat × Option V))} {σ : VecSpec.State V}
    {outs : List (Option (ArrOut V))} (h : VecSpec.runFail C dv VecSpec.start ops = some (σ, outs)) :
    ∃ w, Vec.run C VecWorld.init ops = .ok (w, outs) ∧
      ∀ id b, w.h.blk id = some b → ∃ s v, w.v s = some v ∧ v.g.data = some id := by
  obtain ⟨w, k1, k2⟩ := vec_throw_run_refines hL h1 dv ops VR.init h
  exact ⟨w, k1, k2.live⟩

/-- The program which led to `w`, possibly by way of exceptions, may call `op`. -/
def VecAllowed (C : Cfg V) (dv : V) (w : VecWorld V) (n : Nat) (u : Option V) (op : VecOp V) : Prop :=
  ∃ ops σ outs r, VecSpec.runFail C dv VecSpec.start ops = some (σ, outs) ∧ Vec.run C VecWorld.init ops = .ok (w, outs) ∧
    VecSpec.fail C dv σ n u op = some r

/-- The vector `s` shows the elements `l`, and there is room for `N` elements. -/
structure VecHas (C : Cfg V) (w : VecWorld V) (s N : Nat) (l : List (Cell V)) : Prop where
  shows : VecIs C w s l
  cap : w.step C (.capacity s) = .ok (w, .nat N)
  le : l.length ≤ N

/-! ### Helpers -/

/-- Cells and lists. -/
theorem cells_patch {cells : Nat → Option (Cell V)} {l : List (Cell V)} (h : ∀ i, i < l.length → cells i = l[i]?) (ts : List (ArrSpec.Asg V)) :
    ∀ i, i < l.length → VecSpec.patch cells ts i = (ArrSpec.patch l ts)[i]? := by
  induction ts using List.reverseRecOn with
  | nil => exact h
  | append_singleton ts t ih =>
    intro i hi
    rw [Vec.patch_snoc, Arr.patch_snoc, List.getElem?_modify, ← ih i hi]
    by_cases e : i = t.1.1
    · simp only [if_pos e, if_pos e.symm]; rfl
    · simp only [if_neg e, if_neg fun h => e (Eq.symm h)]
      cases VecSpec.patch cells ts i <;> rfl

theorem VecHas.state (hL : C.L.WF) (h1 : OneD C.tr) (dv : V) {w : VecWorld V} {σ : VecSpec.State V} (hR : VR C w σ) {s N : Nat} {l : List (Cell V)}
    (h : VecHas C w s N l) : ∃ a, σ s = some a ∧ a.n = l.length ∧ a.dim = N ∧ (∀ i, i < N → (a.cells i).isSome = true) ∧
      SameCells C.L l (VecSpec.row C dv a a.n) := by
  cases hs : σ s with
  | none =>
    have := h.shows.size
    simp only [VecWorld.step, VecWorld.withV, hR.absent hs] at this
    cases this
  | some a =>
    obtain ⟨g, hg1, hg2⟩ := hR.vec hs
    have e1 : a.n = l.length := by
      have := h.shows.size
      simp only [VecWorld.step, VecWorld.withV, hg1] at this
      injection this with this; injection this with _ this; injection this
    have e2 : a.dim = N := by
      have := h.cap
      simp only [VecWorld.step, VecWorld.withV, hg1, hg2.dim] at this
      injection this with this; injection this with _ this; injection this
    refine ⟨a, rfl, e1, e2, fun i hi => hg2.live i (by omega), by rw [Vec.row_length, e1], fun i c c' hc hc' t => ?_⟩
    have hi' := (List.getElem?_eq_some_iff.1 hc').1
    have hle := h.le
    have hn : i < a.n := by rw [Vec.row_length] at hi'; exact hi'
    have hcell := Vec.row_get (C := C) (dv := dv) (a := a) (m := a.n) (fun i hi => hg2.live i (by omega)) hi'
    rw [List.getElem?_eq_getElem hi'] at hc'
    cases hc'
    have k1 := vec_get_ok hL h1 dv hR hs hcell t
    have k2 := h.shows.get i c hc t
    rw [k1] at k2
    simp only [Except.ok.injEq, Prod.mk.injEq, true_and, ArrOut.cells.injEq, List.cons.injEq, and_true] at k2
    exact k2.symm

/-- What a vector shows. -/
theorem VecHas.of (hL : C.L.WF) (h1 : OneD C.tr) (dv : V) {w : VecWorld V} {σ : VecSpec.State V} (hR : VR C w σ) {s : Nat} {a : AVec V} (hs : σ s = some a)
    {l l' : List (Cell V)} (hn : a.n = l.length) (hle : a.n ≤ a.dim) (hc : ∀ i, i < l.length → a.cells i = l[i]?) (hsame : SameCells C.L l l') :
    VecHas C w s a.dim l' := by
  obtain ⟨g, hg1, hg2⟩ := hR.vec hs
  have e := hsame.1
  refine ⟨⟨by simp only [VecWorld.step, VecWorld.withV, hg1, hn, e], fun i c hc' t => ?_⟩, by simp only [VecWorld.step, VecWorld.withV, hg1, hg2.dim], by omega⟩
  have hi : i < l.length := by rw [e]; exact (List.getElem?_eq_some_iff.1 hc').1
  have hci := hc i hi
  rw [List.getElem?_eq_getElem hi] at hci
  rw [vec_get_ok hL h1 dv hR hs hci t, hsame.2 i _ c (List.getElem?_eq_getElem hi) hc' t]

theorem row_getElem? {a : AVec V} {m : Nat} (hl : ∀ i, i < m → (a.cells i).isSome = true) (i : Nat) (hi : i < m) :
    a.cells i = (VecSpec.row C dv a m)[i]? := by
  have hi' : i < (VecSpec.row C dv a m).length := by rw [Vec.row_length]; exact hi
  rw [List.getElem?_eq_getElem hi']
  exact Vec.row_get hl hi'

/-- The vector after assignments. -/
theorem VecHas.patched (hL : C.L.WF) (h1 : OneD C.tr) (dv : V) {w : VecWorld V} {σ' : VecSpec.State V} (hR' : VR C w σ') {s : Nat} {a a' : AVec V}
    (hs : σ' s = some a') {ts : List (ArrSpec.Asg V)} (hn : a'.n = a.n) (hd : a'.dim = a.dim) (hc : a'.cells = VecSpec.patch a.cells ts)
    {l : List (Cell V)} (hl : l.length = a.n) (hle : a.n ≤ a.dim) (hlv : ∀ i, i < a.n → (a.cells i).isSome = true)
    (hsame : SameCells C.L l (VecSpec.row C dv a a.n)) : VecHas C w s a.dim (ArrSpec.patch l ts) := by
  have := VecHas.of hL h1 dv hR' hs (l := ArrSpec.patch (VecSpec.row C dv a a.n) ts) (l' := ArrSpec.patch l ts)
    (by rw [Arr.length_patch, Vec.row_length, hn]) (by rw [hn, hd]; exact hle) (fun i hi => by
      rw [Arr.length_patch] at hi
      rw [hc]
      exact cells_patch (fun i hi => row_getElem? hlv i (by rwa [Vec.row_length] at hi)) ts i hi) (hsame.symm.patch ts)
  rw [hd] at this
  exact this

/-- Outcome of an operation which throws. -/
theorem vec_throw_step (hL : C.L.WF) (h1 : OneD C.tr) {w w' : VecWorld V} {n : Nat} {u : Option V} {op : VecOp V} (h : VecAllowed C dv w n u op)
    (hs : Vec.step C w n u op = .ok (some w')) : ∃ σ σ', VR C w σ ∧ VecSpec.fail C dv σ n u op = some (some σ') ∧ VR C w' σ' := by
  obtain ⟨ops, σ, outs, r, k1, k2, k3⟩ := h
  obtain ⟨w1, j1, j2⟩ := vec_throw_run_refines hL h1 dv ops VR.init k1
  rw [k2] at j1
  cases j1
  obtain ⟨r', i1, i2⟩ := Vec.vfail_refines hL h1 dv j2 op n u k3
  rw [hs] at i1
  cases i1
  cases r with
  | none => exact absurd i2 id
  | some σ' => exact ⟨σ, σ', j2, k3, i2⟩

theorem failOn_upd {σ σ' : VecSpec.State V} {s : Nat} {f : AVec V → Option (Option (AVec V))} {a : AVec V} (hs : σ s = some a)
    (h : VecSpec.failOn σ s f = some (some σ')) : ∃ a', f a = some (some a') ∧ σ' = World.upd σ s (some a') := by
  obtain ⟨a0, ra, k1, k2, k3⟩ := Vec.failOn_some h
  rw [hs] at k1; cases k1
  cases ra with
  | none => cases k3
  | some a' =>
    simp only [Option.map_some, Option.some.injEq] at k3
    exact ⟨a', k2, k3⟩

theorem failCtor_none {k n : Nat} {α : Type} {a : α} : VecSpec.failCtor C k n ≠ some (some a) := by
  unfold VecSpec.failCtor
  split
  · exact fun h => by cases h
  · exact fun h => by cases h

theorem failReserve_same {a a' : AVec V} {m n : Nat} (h : VecSpec.failReserve C a m n = some (some a')) : a' = a := by
  unfold VecSpec.failReserve at h
  split at h
  · cases h
  · split at h
    · split at h
      · exact absurd h failCtor_none
      · obtain ⟨-, h⟩ := if_some (Option.some.inj h)
        exact h.symm
    · cases h

theorem failSet_patch {a a' : AVec V} {i n : Nat} {c : Cell V} {u : Option V} (h : VecSpec.failSet C a i c n u = some (some a')) :
    a' = { a with cells := VecSpec.patch a.cells (ArrSpec.upTo (ArrSpec.asgStruct C.L i c) n u) } := by
  unfold VecSpec.failSet at h
  split at h
  · obtain ⟨-, h⟩ := if_some (Option.some.inj h)
    exact h.symm
  · cases h

theorem mem_upTo_asgStruct {i n : Nat} {c : Cell V} {u : Option V} {t : ArrSpec.Asg V} (h : t ∈ ArrSpec.upTo (ArrSpec.asgStruct C.L i c) n u) :
    t.1.1 = i := by
  obtain ⟨t', h1, h2⟩ := Arr.mem_upTo h
  simp only [ArrSpec.asgStruct, List.mem_map] at h1
  obtain ⟨q, -, rfl⟩ := h1
  rw [h2]

/-! ### Operations -/

/-- C68: `push_back`: the elements are what they were, whether or not there was a reallocation. -/
theorem C68_vector_push_partial (hL : C.L.WF) (h1 : OneD C.tr) {w w' : VecWorld V} {n : Nat} {u : Option V} {s N : Nat} {c : Cell V}
    {l : List (Cell V)} (ha : VecAllowed C dv w n u (.push s c)) (hs : Vec.step C w n u (.push s c) = .ok (some w')) (h : VecHas C w s N l) :
    ∃ N', VecHas C w' s N' l := by
  obtain ⟨σ, σ', hR, hf, hR'⟩ := vec_throw_step hL h1 ha hs
  obtain ⟨a, k1, k2, k3, k4, k5⟩ := h.state hL h1 dv hR
  replace hf := failOn_upd k1 hf
  obtain ⟨a', hf, rfl⟩ := hf
  have hle := h.le
  have hlv : ∀ i, i < a.n → (a.cells i).isSome = true := fun i hi => k4 i (by omega)
  have hset : ∀ (a1 : AVec V) (n' : Nat), a1.n = a.n → a1.n ≤ a1.dim → (∀ i, i < a.n → a1.cells i = a.cells i) →
      VecSpec.failSet C a1 a.n c n' u = some (some a') → VecHas C w' s a'.dim l := by
    intro a1 n' e1 e2 e3 hf
    have e4 := failSet_patch hf
    refine VecHas.of hL h1 dv hR' (upd_self _ _ _) (l := VecSpec.row C dv a a.n) ?_ ?_ ?_ k5.symm
    · rw [e4, Vec.row_length]; exact e1
    · rw [e4]; exact e2
    · intro i hi
      rw [Vec.row_length] at hi
      rw [e4]
      show VecSpec.patch a1.cells _ i = _
      rw [Vec.patch_other fun t ht => by rw [mem_upTo_asgStruct ht]; omega, e3 i hi]
      exact row_getElem? hlv i hi
  unfold VecSpec.failPush at hf
  split at hf
  · split at hf
    · split at hf
      · cases hf
      · rename_i e a1 out hsel hres
        simp only at hf
        split at hf
        · have := failReserve_same hf
          subst this
          exact ⟨_, VecHas.of hL h1 dv hR' (upd_self _ _ _) (l := VecSpec.row C dv a' a'.n) (Vec.row_length _ _ _ _).symm (by omega)
            (fun i hi => row_getElem? hlv i (by rwa [Vec.row_length] at hi)) k5.symm⟩
        · unfold VecSpec.reserve at hres
          rw [hsel] at hres
          simp only at hres
          split at hres
          · rename_i hc
            cases hres
            exact ⟨_, hset ⟨e.x, e.x, true, a.n, _⟩ _ rfl hc.2.1 (fun i hi => if_pos hi) hf⟩
          · cases hres
      · cases hf
    · exact ⟨_, hset a n rfl (by omega) (fun _ _ => rfl) hf⟩
  · cases hf

/-- C68: `reserve`: nothing has changed. -/
theorem C68_vector_reserve_partial (hL : C.L.WF) (h1 : OneD C.tr) {w w' : VecWorld V} {n : Nat} {u : Option V} {s N m : Nat}
    {l : List (Cell V)} (ha : VecAllowed C dv w n u (.reserve s m)) (hs : Vec.step C w n u (.reserve s m) = .ok (some w')) (h : VecHas C w s N l) :
    VecHas C w' s N l := by
  obtain ⟨σ, σ', hR, hf, hR'⟩ := vec_throw_step hL h1 ha hs
  obtain ⟨a, k1, k2, k3, k4, k5⟩ := h.state hL h1 dv hR
  replace hf := failOn_upd k1 hf
  obtain ⟨a', hf, rfl⟩ := hf
  have := failReserve_same hf
  subst this
  have hle := h.le
  rw [← k3]
  exact VecHas.of hL h1 dv hR' (upd_self _ _ _) (l := VecSpec.row C dv a' a'.n) (Vec.row_length _ _ _ _).symm (by omega)
    (fun i hi => row_getElem? (fun i hi => k4 i (by omega)) i (by rwa [Vec.row_length] at hi)) k5.symm

/-- C68: `resize`: nothing has changed. -/
theorem C68_vector_resize_partial (hL : C.L.WF) (h1 : OneD C.tr) {w w' : VecWorld V} {n : Nat} {u : Option V} {s N m : Nat}
    {l : List (Cell V)} (ha : VecAllowed C dv w n u (.resize s m)) (hs : Vec.step C w n u (.resize s m) = .ok (some w')) (h : VecHas C w s N l) :
    VecHas C w' s N l := by
  obtain ⟨σ, σ', hR, hf, hR'⟩ := vec_throw_step hL h1 ha hs
  obtain ⟨a, k1, k2, k3, k4, k5⟩ := h.state hL h1 dv hR
  replace hf := failOn_upd k1 hf
  obtain ⟨a', hf, rfl⟩ := hf
  split at hf
  · have := failReserve_same hf
    subst this
    have hle := h.le
    rw [← k3]
    exact VecHas.of hL h1 dv hR' (upd_self _ _ _) (l := VecSpec.row C dv a' a'.n) (Vec.row_length _ _ _ _).symm (by omega)
      (fun i hi => row_getElem? (fun i hi => k4 i (by omega)) i (by rwa [Vec.row_length] at hi)) k5.symm
  · cases hf

/-- C68: `set`: the members of the struct up to the one which threw have been assigned to. -/
theorem C68_vector_set_partial (hL : C.L.WF) (h1 : OneD C.tr) {w w' : VecWorld V} {n : Nat} {u : Option V} {s N i : Nat} {c : Cell V}
    {l : List (Cell V)} (ha : VecAllowed C dv w n u (.set s i c)) (hs : Vec.step C w n u (.set s i c) = .ok (some w')) (h : VecHas C w s N l) :
    VecHas C w' s N (ArrSpec.patch l (ArrSpec.upTo (ArrSpec.asgStruct C.L i c) n u)) := by
  obtain ⟨σ, σ', hR, hf, hR'⟩ := vec_throw_step hL h1 ha hs
  obtain ⟨a, k1, k2, k3, k4, k5⟩ := h.state hL h1 dv hR
  replace hf := failOn_upd k1 hf
  obtain ⟨a', hf, rfl⟩ := hf
  have e := failSet_patch hf
  have hle := h.le
  rw [← k3]
  exact VecHas.patched hL h1 dv hR' (upd_self _ _ _) (by rw [e]) (by rw [e]) (by rw [e]) k2.symm (by omega) (fun i hi => k4 i (by omega)) k5

/-- C68: assignment to a member: it is the only object which may have changed. -/
theorem C68_vector_poke_partial (hL : C.L.WF) (h1 : OneD C.tr) {w w' : VecWorld V} {n : Nat} {u : Option V} {s N r k : Nat} {x X : Int} {v : V}
    {l : List (Cell V)} (ha : VecAllowed C dv w n u (.poke s x X r k v)) (hs : Vec.step C w n u (.poke s x X r k v) = .ok (some w'))
    (h : VecHas C w s N l) : VecHas C w' s N (ArrSpec.patch l (ArrSpec.upTo [(((x + X).toNat, r, k), v)] n u)) := by
  obtain ⟨σ, σ', hR, hf, hR'⟩ := vec_throw_step hL h1 ha hs
  obtain ⟨a, k1, k2, k3, k4, k5⟩ := h.state hL h1 dv hR
  replace hf := failOn_upd k1 hf
  obtain ⟨a', hf, rfl⟩ := hf
  have hle := h.le
  split at hf
  · split at hf
    · obtain ⟨-, e⟩ := if_some (Option.some.inj hf)
      rw [← k3]
      exact VecHas.patched hL h1 dv hR' (upd_self _ _ _) (by rw [← e]) (by rw [← e]) (by rw [← e]) k2.symm (by omega) (fun i hi => k4 i (by omega)) k5
    · cases hf
  · cases hf

/-- C68: `pop_back`: the last element is gone all the same. -/
theorem C68_vector_pop_partial (hL : C.L.WF) (h1 : OneD C.tr) {w w' : VecWorld V} {n : Nat} {u : Option V} {s N : Nat} {c : Cell V}
    {l : List (Cell V)} (ha : VecAllowed C dv w n u (.pop s c)) (hs : Vec.step C w n u (.pop s c) = .ok (some w')) (h : VecHas C w s N l) :
    VecHas C w' s N l.dropLast := by
  obtain ⟨σ, σ', hR, hf, hR'⟩ := vec_throw_step hL h1 ha hs
  obtain ⟨a, k1, k2, k3, k4, k5⟩ := h.state hL h1 dv hR
  replace hf := failOn_upd k1 hf
  obtain ⟨a', hf, rfl⟩ := hf
  have hle := h.le
  split at hf
  · rename_i hpos
    rw [Option.map_eq_some_iff] at hf
    obtain ⟨oa, hf, ho⟩ := hf
    rw [Option.map_eq_some_iff] at ho
    obtain ⟨a1, rfl, rfl⟩ := ho
    have e := failSet_patch hf
    have hd : a1.dim = N := by rw [e]; exact k3
    rw [← hd]
    refine VecHas.of hL h1 dv hR' (upd_self _ _ _) (l := (VecSpec.row C dv a a.n).dropLast) (l' := l.dropLast) ?_ ?_ ?_ ?_
    · rw [List.length_dropLast, Vec.row_length]
    · show a.n - 1 ≤ a1.dim; omega
    · intro i hi
      rw [List.length_dropLast, Vec.row_length] at hi
      show a1.cells i = _
      rw [e]
      show VecSpec.patch a.cells _ i = _
      rw [Vec.patch_other fun t ht => by rw [mem_upTo_asgStruct ht]; omega, List.getElem?_dropLast, Vec.row_length, if_pos (by omega)]
      exact row_getElem? (fun i hi => k4 i (by omega)) i (by omega)
    · refine ⟨by simp [k5.1], fun j x y hx hy t => ?_⟩
      rw [List.getElem?_dropLast] at hx hy
      split at hx
      · split at hy
        · exact (k5.2 j y x hy hx t).symm
        · cases hy
      · cases hx
  · cases hf

/-- C68: assignment of a vector of the same capacity: the size remains, elements have been overwritten up to the object which threw.
    Cells behind the last element are copied as well (`rest`). -/
theorem C68_vector_assign_partial (hL : C.L.WF) (h1 : OneD C.tr) {w w' : VecWorld V} {n : Nat} {u : Option V} {s t N : Nat} {l k : List (Cell V)}
    (ha : VecAllowed C dv w n u (.assign s t)) (hs : Vec.step C w n u (.assign s t) = .ok (some w')) (h : VecHas C w s N l)
    (h' : VecHas C w t N k) :
    ∃ rest, (k ++ rest).length = N ∧ VecHas C w' s N (ArrSpec.patch l (ArrSpec.upTo (ArrSpec.asgRow C.L 0 (k ++ rest)) n u)) := by
  obtain ⟨σ, σ', hR, hf, hR'⟩ := vec_throw_step hL h1 ha hs
  obtain ⟨a, k1, k2, k3, k4, k5⟩ := h.state hL h1 dv hR
  obtain ⟨o, j1, j2, j3, j4, j5⟩ := h'.state hL h1 dv hR
  have hle := h.le
  have hle' := h'.le
  simp only [VecSpec.fail, k1, j1] at hf
  rw [if_pos (by rw [k3, j3])] at hf
  obtain ⟨-, rfl⟩ := if_some (Option.some.inj hf)
  obtain ⟨rest, hsplit⟩ : ∃ rest, VecSpec.row C dv o o.dim = VecSpec.row C dv o o.n ++ rest := by
    refine ⟨(VecSpec.row C dv o o.dim).drop o.n, ?_⟩
    conv => lhs; rw [← List.take_append_drop o.n (VecSpec.row C dv o o.dim)]
    congr 1
    unfold VecSpec.row
    rw [← List.map_take, List.take_range, Nat.min_eq_left (by omega)]
  have hlen := congrArg List.length hsplit
  rw [List.length_append, Vec.row_length, Vec.row_length] at hlen
  refine ⟨rest, by rw [List.length_append]; omega, ?_⟩
  have hsame : SameCells C.L (k ++ rest) (VecSpec.row C dv o o.dim) := by
    rw [hsplit]
    refine ⟨by rw [List.length_append, List.length_append, j5.1], fun i x y hx hy t => ?_⟩
    by_cases hi : i < k.length
    · rw [List.getElem?_append_left hi] at hx
      rw [List.getElem?_append_left (by rw [← j5.1]; exact hi)] at hy
      exact j5.2 i x y hx hy t
    · rw [List.getElem?_append_right (by omega)] at hx
      rw [List.getElem?_append_right (by rw [← j5.1]; omega), ← j5.1] at hy
      rw [hx] at hy; cases hy; rfl
  rw [hsame.asgRow]
  have e : a.dim = N := k3
  rw [← e]
  exact VecHas.patched hL h1 dv hR' (upd_self _ _ _) (a := a) rfl rfl rfl k2.symm (by omega) (fun i hi => k4 i (by omega)) k5

theorem failOn_frame {σ σ' : VecSpec.State V} {s t : Nat} {f : AVec V → Option (Option (AVec V))} (ht : t ≠ s)
    (h : VecSpec.failOn σ s f = some (some σ')) : σ' t = σ t := by
  obtain ⟨a, ra, k1, k2, k3⟩ := Vec.failOn_some h
  cases ra with
  | none => cases k3
  | some a' =>
    simp only [Option.map_some, Option.some.injEq] at k3
    rw [k3, upd_ne _ _ ht]

theorem fail_frame {σ σ' : VecSpec.State V} {n : Nat} {u : Option V} {op : VecOp V} (h : VecSpec.fail C dv σ n u op = some (some σ')) {t : Nat}
    (ht : t ≠ target op) : σ' t = σ t := by
  cases op with
  | new s m =>
    simp only [VecSpec.fail] at h
    split at h
    · cases h
    · cases h
    · exact absurd h failCtor_none
  | newFill s m c =>
    simp only [VecSpec.fail] at h
    split at h
    · cases h
    · cases h
    · split at h
      · exact absurd h failCtor_none
      · obtain ⟨-, rfl⟩ := if_some (Option.some.inj h); rfl
  | copy s t =>
    simp only [VecSpec.fail] at h
    split at h
    · split at h <;> cases h
    · cases h
  | assign s t =>
    simp only [VecSpec.fail] at h
    split at h
    · split at h
      · obtain ⟨-, rfl⟩ := if_some (Option.some.inj h)
        exact upd_ne _ _ ht
      · split at h
        · exact absurd h failCtor_none
        · obtain ⟨-, rfl⟩ := if_some (Option.some.inj h)
          exact upd_ne _ _ ht
    · cases h
  | set s i c => exact failOn_frame ht h
  | get s i x => exact failOn_frame ht h
  | push s c => exact failOn_frame ht h
  | pop s td => exact failOn_frame ht h
  | reserve s m => exact failOn_frame ht h
  | resize s m => exact failOn_frame ht h
  | poke s x X r k val => exact failOn_frame ht h
  | destroy s => cases h
  | clear s => cases h
  | size s => cases h
  | capacity s => cases h
  | empty s => cases h
  | peek s x X r k => cases h

/-- C68: exceptions do not affect other vectors. -/
theorem C68_vector_others_partial (hL : C.L.WF) (h1 : OneD C.tr) {w w' : VecWorld V} {n : Nat} {u : Option V} {op : VecOp V}
    (ha : VecAllowed C dv w n u op) (hs : Vec.step C w n u op = .ok (some w')) {t N : Nat} (ht : t ≠ target op) {l : List (Cell V)}
    (h : VecHas C w t N l) : VecHas C w' t N l := by
  obtain ⟨σ, σ', hR, hf, hR'⟩ := vec_throw_step hL h1 ha hs
  obtain ⟨a, k1, k2, k3, k4, k5⟩ := h.state hL h1 dv hR
  have hle := h.le
  rw [← fail_frame hf ht] at k1
  rw [← k3]
  exact VecHas.of hL h1 dv hR' k1 (l := VecSpec.row C dv a a.n) (Vec.row_length _ _ _ _).symm (by omega)
    (fun i hi => row_getElem? (fun i hi => k4 i (by omega)) i (by rwa [Vec.row_length] at hi)) k5.symm

/-- C68: `soa_vector(count, value)`: if the assignment of `value` throws, then all memory allocated in the meantime has been released,
    and no objects are left in there. -/
theorem C68_vector_fill_partial (hL : C.L.WF) (h1 : OneD C.tr) {w w' : VecWorld V} {n : Nat} {u : Option V} {s m : Nat} {c : Cell V}
    (ha : VecAllowed C dv w n u (.newFill s m c)) (hs : Vec.step C w n u (.newFill s m c) = .ok (some w')) :
    w'.v s = none ∧ (∀ id b, w'.h.blk id = some b → ∃ t v, w'.v t = some v ∧ v.g.data = some id) ∧ ∀ b ∈ w'.h.freed, Clean b := by
  obtain ⟨σ, σ', hR, hf, hR'⟩ := vec_throw_step hL h1 ha hs
  refine ⟨hR'.absent ?_, hR'.live, hR'.clean⟩
  simp only [VecSpec.fail] at hf
  split at hf
  · cases hf
  · cases hf
  · rename_i hσ _
    split at hf
    · exact absurd hf failCtor_none
    · obtain ⟨-, rfl⟩ := if_some (Option.some.inj hf)
      exact hσ

end
/-- Buffers for 8 or 16 elements of a struct with a double, a float[3] and a string. -/
def thrC : Cfg Int := ⟨demoL, .uniform1 [8, 16], false⟩

theorem thrC_one : OneD thrC.tr := OneD.uniform1 _

/-- Two vectors; a `push_back` throws and is repeated. -/
def thrOps : List (VecOp Int × Option (Nat × Option Int)) :=
  [(.newFill 0 3 demoCell, none), (.newFill 1 3 (fun _ _ => 4), none), (.reserve 0 8, none), (.reserve 1 8, none),
   (.push 0 demoCell, some (4, none)), (.push 0 demoCell, none)]

example : ∃ σ outs, VecSpec.runFail thrC 0 VecSpec.start thrOps = some (σ, outs) := ⟨_, _, rfl⟩

/-- The operation is legal and does throw. -/
def VFails (w : VecWorld Int) (n : Nat) (op : VecOp Int) : Prop :=
  VecAllowed thrC 0 w n none op ∧ ∃ w', Vec.step thrC w n none op = .ok (some w')

/-- A state in which the theorems above apply to all kinds of operations. -/
theorem demo_fails_vector : ∃ w : VecWorld Int, (∃ l, VecHas thrC w 0 8 l ∧ l.length = 4) ∧ (∃ l, VecHas thrC w 1 8 l ∧ l.length = 3) ∧
    VFails w 4 (.push 0 demoCell) ∧ VFails w 141 (.reserve 0 9) ∧ VFails w 156 (.resize 0 12) ∧ VFails w 4 (.set 0 1 demoCell) ∧
    VFails w 0 (.poke 1 0 0 2 0 7) ∧ VFails w 4 (.pop 0 demoCell) ∧ VFails w 33 (.assign 0 1) ∧ VFails w 19 (.newFill 2 3 demoCell) := by
  obtain ⟨w, h1, hR⟩ := vec_throw_run_refines (C := thrC) demoL_WF thrC_one 0 thrOps VR.init (σ' := _) (outs := _) rfl
  have key : ∀ (n : Nat) (op : VecOp Int) σ', VecSpec.fail thrC 0 _ n none op = some (some σ') → VFails w n op := fun n op σ' h => by
    refine ⟨⟨_, _, _, _, rfl, h1, h⟩, ?_⟩
    obtain ⟨r', k1, k2⟩ := Vec.vfail_refines demoL_WF thrC_one 0 hR op n none h
    cases r' with
    | none => exact absurd k2 id
    | some w' => exact ⟨w', k1⟩
  refine ⟨w, ?_, ?_, key _ _ _ rfl, key _ _ _ rfl, key _ _ _ rfl, key _ _ _ rfl, key _ _ _ rfl, key _ _ _ rfl, key _ _ _ rfl, key _ _ _ rfl⟩
  · exact ⟨_, VecHas.of demoL_WF thrC_one 0 hR (s := 0) (a := _) rfl (l := [demoCell, demoCell, demoCell, demoCell]) rfl (by decide)
      (fun i hi => by
        match i, hi with
        | 0, _ => rfl
        | 1, _ => rfl
        | 2, _ => rfl
        | 3, _ => rfl) ⟨rfl, fun i c c' h h' t => by rw [h] at h'; cases h'; rfl⟩, rfl⟩
  · exact ⟨_, VecHas.of demoL_WF thrC_one 0 hR (s := 1) (a := _) rfl (l := List.replicate 3 fun _ _ => 4) rfl (by decide)
      (fun i hi => by
        match i, hi with
        | 0, _ => rfl
        | 1, _ => rfl
        | 2, _ => rfl) ⟨rfl, fun i c c' h h' t => by rw [h] at h'; cases h'; rfl⟩, rfl⟩

example : ∃ (w w' : VecWorld Int) (l : List (Cell Int)) (N : Nat), l.length = 4 ∧ Vec.step thrC w 4 none (.push 0 demoCell) = .ok (some w') ∧
    VecHas thrC w' 0 N l := by
  obtain ⟨w, ⟨l, hl, hlen⟩, -, ⟨ha, w', hs⟩, -⟩ := demo_fails_vector
  obtain ⟨N, h⟩ := C68_vector_push_partial demoL_WF thrC_one ha hs hl
  exact ⟨w, w', l, N, hlen, hs, h⟩

example : ∃ (w w' : VecWorld Int), Vec.step thrC w 19 none (.newFill 2 3 demoCell) = .ok (some w') ∧ w'.v 2 = none := by
  obtain ⟨w, -, -, -, -, -, -, -, -, -, ha, w', hs⟩ := demo_fails_vector
  exact ⟨w, w', hs, (C68_vector_fill_partial demoL_WF thrC_one ha hs).1⟩

end LFA.Props
