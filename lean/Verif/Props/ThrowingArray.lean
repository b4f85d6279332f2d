import Verif.ThrowingArrayProof
import Verif.Props.SoaArray
import Verif.GridObs

/-
  C68, first part: soa_arrays whose members throw.
-/
set_option linter.unusedSectionVars false
namespace LFA.Props
open LFA LFA.Throwing

section
variable {V : Type} [DecidableEq V] {L : Layout V}

/-- The loops which are interrupted by the exception are those of the member functions: if none of the operations throws then the
    lists of operations have the effect of the functions. -/
theorem C68_array_loops_partial (L : Layout V) (src : Block V → Block V) (N M n m off j num i : Nat) (v : Cell V) (b : Block V) :
    SArr.constructAll L N = runL (exec src) (Arr.constructList L N) (Block.fresh (aggSize L * N)) ∧
    walk n 0 (fun _ idx b => (SArr.acc N idx).setCell L v b) b = runL (exec src) (Arr.fillList L N n v) b ∧
    (SArr.acc N i).setCell L v b = runL (exec src) (setOps L (SArr.acc N i) v) b ∧
    (SArr.acc N 0).copyMembers L (SArr.acc M 0) src m b = runL (exec src) (Arr.copyList L N M m) b ∧
    (SArr.accSz N off).loadRaw L src num j M b = runL (exec src) (Arr.loadList L N off M j num) b :=
  ⟨Arr.constructList_run L N, Arr.fillList_run L N n v b, Arr.setOps_run' L _ v b, Arr.copyList_run L N M m b,
    Arr.loadList_run L N off M j num b⟩

/-! ### Programs in which members throw -/

/-- A program which catches the exceptions of members and goes on does not run into undefined behaviour, and observes what it would
    observe of lists to which only the assignments before the exception have been applied. -/
theorem throw_run_refines (hL : L.WF) (dv : V) (ops : List (ArrOp V × Option (Nat × Option V))) {w : ArrWorld V} {σ σ' : ArrSpec.State V}
    (hR : ArrR L w σ) {outs : List (Option (ArrOut V))} (h : ArrSpec.runFail L σ ops = some (σ', outs)) :
    ∃ w', Arr.run L w ops = .ok (w', outs) ∧ ArrR L w' σ' := by
  induction ops generalizing w σ outs with
  | nil =>
    simp only [ArrSpec.runFail] at h
    cases h
    exact ⟨w, rfl, hR⟩
  | cons p ops ih =>
    obtain ⟨op, f⟩ := p
    have go : ∀ (r : Option (ArrSpec.State V)), ArrSpec.runFail.thrown L σ op f = some r →
        ∃ r', Arr.run.thrown L w op f = .ok r' ∧ Arr.Agree L r' r := by
      intro r hr
      cases f with
      | none => cases hr; exact ⟨none, rfl, trivial⟩
      | some q => exact Arr.fail_refines hL dv hR q.1 q.2 hr
    simp only [ArrSpec.runFail] at h
    cases hf : ArrSpec.runFail.thrown L σ op f with
    | none => rw [hf] at h; cases h
    | some r =>
      obtain ⟨r', hr', ha⟩ := go r hf
      rw [hf] at h
      cases r with
      | some σ1 =>
        cases r' with
        | none => exact absurd ha id
        | some w1 =>
          simp only at h
          cases hrun : ArrSpec.runFail L σ1 ops with
          | none => rw [hrun] at h; cases h
          | some q =>
            rw [hrun] at h
            cases h
            obtain ⟨w2, k1, k2⟩ := ih ha hrun
            exact ⟨w2, by simp only [Arr.run, hr', k1]; rfl, k2⟩
      | none =>
        cases r' with
        | some w1 => exact absurd ha id
        | none =>
          simp only at h
          cases hst : ArrSpec.step L σ op with
          | none => rw [hst] at h; cases h
          | some q =>
            obtain ⟨σ1, out⟩ := q
            rw [hst] at h
            simp only at h
            obtain ⟨w1, j1, j2⟩ := arr_step_refines hL dv hR hst
            cases hrun : ArrSpec.runFail L σ1 ops with
            | none => rw [hrun] at h; cases h
            | some q =>
              rw [hrun] at h
              cases h
              obtain ⟨w2, k1, k2⟩ := ih j2 hrun
              exact ⟨w2, by simp only [Arr.run, hr', j1, k1]; rfl, k2⟩

theorem C68_array_history_partial (hL : L.WF) (dv : V) {ops : List (ArrOp V × Option (Nat × Option V))} {σ : ArrSpec.State V}
    {outs : List (Option (ArrOut V))} (h : ArrSpec.runFail L ArrSpec.start ops = some (σ, outs)) :
    ∃ w, Arr.run L ArrWorld.init ops = .ok (w, outs) := by
  obtain ⟨w, h1, -⟩ := throw_run_refines hL dv ops (ArrR.init L) h
  exact ⟨w, h1⟩

/-- The program which led to `w`, possibly by way of exceptions, may call `op`. -/
def ArrAllowed (L : Layout V) (w : ArrWorld V) (n : Nat) (u : Option V) (op : ArrOp V) : Prop :=
  ∃ ops σ outs r, ArrSpec.runFail L ArrSpec.start ops = some (σ, outs) ∧ Arr.run L ArrWorld.init ops = .ok (w, outs) ∧
    ArrSpec.fail L σ n u op = some r

/-- Descriptions of a list of structs which do not differ in registered members. -/
def SameCells (L : Layout V) (l l' : List (Cell V)) : Prop :=
  l.length = l'.length ∧ ∀ (i : Nat) (c c' : Cell V), l[i]? = some c → l'[i]? = some c' → ∀ t, overlay L c t = overlay L c' t

theorem SameCells.symm {l l' : List (Cell V)} (h : SameCells L l l') : SameCells L l' l :=
  ⟨h.1.symm, fun i c c' h1 h2 t => (h.2 i c' c h2 h1 t).symm⟩

theorem SameCells.modify {l l' : List (Cell V)} (h : SameCells L l l') (i r k : Nat) (v : V) :
    SameCells L (l.modify i fun c => c.set r k v) (l'.modify i fun c => c.set r k v) := by
  refine ⟨by simp [h.1], fun j c c' h1 h2 t => ?_⟩
  rw [List.getElem?_modify] at h1 h2
  cases hc : l[j]? with
  | none => rw [hc] at h1; cases h1
  | some d =>
    cases hc' : l'[j]? with
    | none => rw [hc'] at h2; cases h2
    | some d' =>
      rw [hc] at h1
      rw [hc'] at h2
      have e := overlay_eq_iff (h.2 j d d' hc hc' t)
      by_cases hij : i = j
      · simp only [hij, if_true, Option.map_some, Option.some.injEq, Option.map_eq_map] at h1 h2
        subst h1 h2
        refine overlay_congr fun r' m k' hm hk => ?_
        unfold Cell.set
        split
        · rfl
        · exact e r' m k' hm hk
      · simp only [hij, if_false, Option.map_some, Option.some.injEq, Option.map_eq_map] at h1 h2
        subst h1 h2
        exact overlay_congr e

theorem SameCells.patch {l l' : List (Cell V)} (h : SameCells L l l') (ts : List (ArrSpec.Asg V)) :
    SameCells L (ArrSpec.patch l ts) (ArrSpec.patch l' ts) := by
  induction ts generalizing l l' with
  | nil => exact h
  | cons t ts ih => exact ih (h.modify _ _ _ _)

theorem ListIs.same {w : ArrWorld V} {s N : Nat} {l l' : List (Cell V)} (h : ListIs L w s N l) (hs : SameCells L l l') : ListIs L w s N l' :=
  h.congr hs.1 hs.2

/-- Arrays which are not overwritten are untouched. -/
theorem others {w w' : ArrWorld V} {σ σ' : ArrSpec.State V} (hL : L.WF) (hR : ArrR L w σ) (hR' : ArrR L w' σ') {t N : Nat} {l l' : List (Cell V)}
    (ht : σ t = some (N, l)) (ht' : σ' t = some (N, l')) {l0 : List (Cell V)} (h : ListIs L w t N l0) {ts : List (ArrSpec.Asg V)}
    (hp : l' = ArrSpec.patch l ts) : ListIs L w' t N (ArrSpec.patch l0 ts) := by
  obtain ⟨a, ha, hrep⟩ := hR.arr ht
  obtain ⟨a', ha', hrep'⟩ := hR'.arr ht'
  obtain ⟨-, e2, e3⟩ := h.agree (ListIs.of_rep hL ha hrep)
  refine (ListIs.of_rep hL ha' hrep').same ?_
  rw [hp]
  exact (SameCells.symm ⟨e2, e3⟩).patch ts

theorem ListIs.state {w : ArrWorld V} {σ : ArrSpec.State V} (hL : L.WF) (hR : ArrR L w σ) {s N : Nat} {l : List (Cell V)} (h : ListIs L w s N l) :
    ∃ l', σ s = some (N, l') ∧ SameCells L l l' := by
  obtain ⟨a, ha, _⟩ := h.exists
  cases hs : σ s with
  | none => rw [hR.absent hs] at ha; cases ha
  | some p =>
    obtain ⟨N', l'⟩ := p
    obtain ⟨a', ha', hrep⟩ := hR.arr hs
    obtain ⟨e1, e2, e3⟩ := h.agree (ListIs.of_rep hL ha' hrep)
    subst e1
    exact ⟨l', rfl, e2, e3⟩

/-- Assignments do not depend on anything but registered members. -/
theorem SameCells.asgRow {l l' : List (Cell V)} (h : SameCells L l l') (off : Nat) : ArrSpec.asgRow L off l = ArrSpec.asgRow L off l' := by
  unfold ArrSpec.asgRow
  rw [Arr.objs_eq]
  refine List.flatMap_congr fun p hp => ?_
  obtain ⟨q, hq, rfl⟩ := List.mem_map.1 hp
  obtain ⟨hm, hk⟩ := mem_memKeys hq
  apply List.ext_getElem?
  intro i
  simp only [List.getElem?_map, List.getElem?_zipIdx, Option.map_map]
  by_cases hi : i < l.length
  · have hi' : i < l'.length := by rw [← h.1]; exact hi
    have e := overlay_eq_iff (h.2 i _ _ (List.getElem?_eq_getElem hi) (List.getElem?_eq_getElem hi') l[i]) q.1 _ q.2.2 hm hk
    rw [List.getElem?_eq_getElem hi, List.getElem?_eq_getElem hi']
    simp [e]
  · rw [List.getElem?_eq_none (by omega), List.getElem?_eq_none (by rw [← h.1]; omega)]

theorem SameCells.part {l l' : List (Cell V)} (h : SameCells L l l') (j num : Nat) : SameCells L ((l.drop j).take num) ((l'.drop j).take num) := by
  refine ⟨by simp [h.1], fun i c c' h1 h2 => ?_⟩
  rw [List.getElem?_take] at h1 h2
  split at h1
  · rename_i hi
    rw [if_pos hi] at h2
    rw [List.getElem?_drop] at h1 h2
    exact h.2 _ c c' h1 h2
  · cases h1

/-- Outcome of an operation which throws. -/
theorem throw_step (hL : L.WF) (dv : V) {w w' : ArrWorld V} {n : Nat} {u : Option V} {op : ArrOp V} (h : ArrAllowed L w n u op)
    (hs : Arr.step L w n u op = .ok (some w')) : ∃ σ σ', ArrR L w σ ∧ ArrSpec.fail L σ n u op = some (some σ') ∧ ArrR L w' σ' := by
  obtain ⟨ops, σ, outs, r, h1, h2, h3⟩ := h
  obtain ⟨w1, k1, k2⟩ := throw_run_refines hL dv ops (ArrR.init L) h1
  rw [h2] at k1
  cases k1
  obtain ⟨r', j1, j2⟩ := Arr.fail_refines hL dv k2 n u h3
  rw [hs] at j1
  cases j1
  cases r with
  | none => exact absurd j2 id
  | some σ' => exact ⟨σ, σ', k2, h3, j2⟩

theorem listIs_after (hL : L.WF) {w : ArrWorld V} {σ : ArrSpec.State V} (hR : ArrR L w σ) {s N : Nat} {l l' : List (Cell V)} (hs : σ s = some (N, l'))
    (h : SameCells L l' l) : ListIs L w s N l := by
  obtain ⟨a, ha, hrep⟩ := hR.arr hs
  exact (ListIs.of_rep hL ha hrep).same h

theorem if_some {α : Type} {c : Prop} [Decidable c] {x y : α} (h : (if c then some x else none) = some y) : c ∧ x = y := by
  split at h
  · rename_i hc; exact ⟨hc, Option.some.inj h⟩
  · cases h

/-- `push_back`: the array is what it was. -/
theorem C68_array_push_partial (hL : L.WF) (dv : V) {w w' : ArrWorld V} {n : Nat} {u : Option V} {s N : Nat} {c : Cell V} {l : List (Cell V)}
    (ha : ArrAllowed L w n u (.push s c)) (hs : Arr.step L w n u (.push s c) = .ok (some w')) (h : ListIs L w s N l) : ListIs L w' s N l := by
  obtain ⟨σ, σ', hR, hf, hR'⟩ := throw_step hL dv ha hs
  obtain ⟨l', h1, h2⟩ := h.state hL hR
  simp only [ArrSpec.fail, h1, Option.some.injEq] at hf
  obtain ⟨-, rfl⟩ := if_some hf
  exact listIs_after hL hR' h1 h2.symm

/-- `append`: the array is what it was. -/
theorem C68_array_append_partial (hL : L.WF) (dv : V) {w w' : ArrWorld V} {n : Nat} {u : Option V} {s t N j num : Nat} {l : List (Cell V)}
    (ha : ArrAllowed L w n u (.append s t j num)) (hs : Arr.step L w n u (.append s t j num) = .ok (some w')) (h : ListIs L w s N l) :
    ListIs L w' s N l := by
  obtain ⟨σ, σ', hR, hf, hR'⟩ := throw_step hL dv ha hs
  obtain ⟨l', h1, h2⟩ := h.state hL hR
  have e : σ' = σ := by
    cases ht : σ t with
    | none => simp only [ArrSpec.fail, h1, ht] at hf; cases hf
    | some p =>
      simp only [ArrSpec.fail, h1, ht, Option.map_eq_some_iff] at hf
      obtain ⟨o, -, x, -, e⟩ := hf
      exact e.symm
  rw [e] at hR'
  exact listIs_after hL hR' h1 h2.symm

/-- `set` and `operator<<`: the objects of the struct in front of the one which threw have been overwritten. -/
theorem C68_array_set_partial (hL : L.WF) (dv : V) {w w' : ArrWorld V} {n : Nat} {u : Option V} {s N : Nat} {i : Int} {c : Cell V} {l : List (Cell V)}
    (ha : ArrAllowed L w n u (.set s i c)) (hs : Arr.step L w n u (.set s i c) = .ok (some w')) (h : ListIs L w s N l) :
    ListIs L w' s N (ArrSpec.patch l (ArrSpec.upTo (ArrSpec.asgStruct L i.toNat c) n u)) := by
  obtain ⟨σ, σ', hR, hf, hR'⟩ := throw_step hL dv ha hs
  obtain ⟨l', h1, h2⟩ := h.state hL hR
  simp only [ArrSpec.fail, h1] at hf
  split at hf
  · obtain ⟨-, rfl⟩ := if_some (Option.some.inj hf)
    exact listIs_after hL hR' (by simp [ArrWorld.upd]) (h2.symm.patch _)
  · cases hf

/-- Assignment to a member: it is the only object which may have changed. -/
theorem C68_array_poke_partial (hL : L.WF) (dv : V) {w w' : ArrWorld V} {n : Nat} {u : Option V} {s N r k : Nat} {i : Int} {v : V} {l : List (Cell V)}
    (ha : ArrAllowed L w n u (.poke s i r k v)) (hs : Arr.step L w n u (.poke s i r k v) = .ok (some w')) (h : ListIs L w s N l) :
    ListIs L w' s N (ArrSpec.patch l (ArrSpec.upTo [((i.toNat, r, k), v)] n u)) := by
  obtain ⟨σ, σ', hR, hf, hR'⟩ := throw_step hL dv ha hs
  obtain ⟨l', h1, h2⟩ := h.state hL hR
  cases hm : L[r]? with
  | none => simp only [ArrSpec.fail, h1, hm] at hf; cases hf
  | some m =>
    simp only [ArrSpec.fail, h1, hm] at hf
    split at hf
    · cases hf
    · obtain ⟨-, rfl⟩ := if_some (Option.some.inj hf)
      exact listIs_after hL hR' (by simp [ArrWorld.upd]) (h2.symm.patch _)

/-- Assignment of another array: the size remains, elements have been overwritten up to the object which threw. -/
theorem C68_array_assign_partial (hL : L.WF) (dv : V) {w w' : ArrWorld V} {n : Nat} {u : Option V} {s t N M : Nat} {cst : Bool} {l k : List (Cell V)}
    (ha : ArrAllowed L w n u (.assign s t cst)) (hs : Arr.step L w n u (.assign s t cst) = .ok (some w')) (h : ListIs L w s N l)
    (h' : ListIs L w t M k) : ListIs L w' s N (ArrSpec.patch l (ArrSpec.upTo (ArrSpec.asgRow L 0 k) n u)) := by
  obtain ⟨σ, σ', hR, hf, hR'⟩ := throw_step hL dv ha hs
  obtain ⟨l', h1, h2⟩ := h.state hL hR
  obtain ⟨k', h1', h2'⟩ := h'.state hL hR
  simp only [ArrSpec.fail, h1, h1'] at hf
  split at hf
  · split at hf
    · cases hf
    · split at hf
      · cases hf
        rw [h2'.asgRow]
        exact listIs_after hL hR' (by simp [ArrWorld.upd]) (h2.symm.patch _)
      · cases hf
  · cases hf

/-- `load`: the size remains, elements have been overwritten up to the object which threw. -/
theorem C68_array_load_partial (hL : L.WF) (dv : V) {w w' : ArrWorld V} {n : Nat} {u : Option V} {s t N M j num off : Nat} {l k : List (Cell V)}
    (ha : ArrAllowed L w n u (.load s t j num off)) (hs : Arr.step L w n u (.load s t j num off) = .ok (some w')) (h : ListIs L w s N l)
    (h' : ListIs L w t M k) :
    ListIs L w' s N (ArrSpec.patch l (ArrSpec.upTo (ArrSpec.asgRow L off ((k.drop j).take num)) n u)) := by
  obtain ⟨σ, σ', hR, hf, hR'⟩ := throw_step hL dv ha hs
  obtain ⟨l', h1, h2⟩ := h.state hL hR
  obtain ⟨k', h1', h2'⟩ := h'.state hL hR
  simp only [ArrSpec.fail, h1, h1'] at hf
  split at hf
  · rw [Option.map_eq_some_iff] at hf
    obtain ⟨o, hf, ho⟩ := hf
    rw [Option.map_eq_some_iff] at ho
    obtain ⟨l1, rfl, rfl⟩ := ho
    unfold ArrSpec.failLoad at hf
    split at hf
    · split at hf
      · cases hf
        rw [(h2'.part j num).asgRow]
        exact listIs_after hL hR' (by simp [ArrWorld.upd]) (h2.symm.patch _)
      · cases hf
    · cases hf
  · cases hf

theorem wr_ok {w w' : ArrWorld V} {s : Nat} {a : SArr V} {r : Except UB (Option (Block V))} (h : Arr.step.wr w s a r = .ok (some w')) :
    ∃ b, r = .ok (some b) ∧ w' = ⟨ArrWorld.upd w.a s (some { a with data := b }), w.gone⟩ := by
  unfold Arr.step.wr at h
  cases r with
  | error e => cases h
  | ok o =>
    cases o with
    | none => cases h
    | some b => exact ⟨b, rfl, by cases h; rfl⟩

theorem withA_ok {w w' : ArrWorld V} {s : Nat} {f : SArr V → Except UB (Option (ArrWorld V))} (h : Arr.step.withA w s f = .ok (some w')) :
    ∃ a, w.a s = some a ∧ f a = .ok (some w') := by
  unfold Arr.step.withA at h
  cases ha : w.a s with
  | none => rw [ha] at h; cases h
  | some a => rw [ha] at h; exact ⟨a, rfl, h⟩

/-- The array an operation modifies. -/
def written : ArrOp V → Option Nat
  | .assign s _ _ | .set s _ _ | .poke s _ _ _ _ | .push s _ | .load s _ _ _ _ | .append s _ _ _ => some s
  | _ => none

/-- Whatever throws: all arrays are still there with their capacity and size, no new one is, and those which the operation does not
    write to are untouched. -/
theorem C68_array_others_partial {w w' : ArrWorld V} {n : Nat} {u : Option V} {op : ArrOp V} (hs : Arr.step L w n u op = .ok (some w')) :
    (∀ t, written op ≠ some t → w'.a t = w.a t) ∧ ∀ t, ((w'.a t).map fun a => (a.N, a.n)) = (w.a t).map fun a => (a.N, a.n) := by
  have key : ∀ (s : Nat) (a : SArr V) (r : Except UB (Option (Block V))), w.a s = some a → Arr.step.wr w s a r = .ok (some w') →
      (∀ t, some s ≠ some t → w'.a t = w.a t) ∧ ∀ t, ((w'.a t).map fun a => (a.N, a.n)) = (w.a t).map fun a => (a.N, a.n) := by
    intro s a r ha h
    obtain ⟨b, -, rfl⟩ := wr_ok h
    refine ⟨fun t ht => ?_, fun t => ?_⟩
    · show ArrWorld.upd w.a s _ t = _
      unfold ArrWorld.upd
      rw [if_neg fun e => ht (by rw [e])]
    · show (ArrWorld.upd w.a s _ t).map _ = _
      unfold ArrWorld.upd
      by_cases e : t = s
      · rw [if_pos e, e, ha]; rfl
      · rw [if_neg e]
  have keep : w'.a = w.a → (∀ t, written op ≠ some t → w'.a t = w.a t) ∧
      ∀ t, ((w'.a t).map fun a => (a.N, a.n)) = (w.a t).map fun a => (a.N, a.n) := fun h => by
    rw [h]; exact ⟨fun _ _ => rfl, fun _ => rfl⟩
  have lost : ∀ r : Except UB (Option (Block V)), Arr.step.lost w r = .ok (some w') → w'.a = w.a := by
    intro r h
    unfold Arr.step.lost at h
    cases r with
    | error e => cases h
    | ok o =>
      cases o with
      | none => cases h
      | some b => cases h; rfl
  have obs : ∀ (r : Except UB (ArrWorld V × ArrOut V)) (num : Nat), Arr.step.observed L w n r num = .ok (some w') → w'.a = w.a := by
    intro r num h
    unfold Arr.step.observed at h
    cases r with
    | error e => cases h
    | ok o =>
      simp only [Except.map] at h
      split at h
      · split at h
        · cases h
        · cases h; rfl
      · cases h
  have load : ∀ (s t : Nat) (a o : SArr V) (j num off : Nat), w.a s = some a → Arr.step.load L w n u s t a o j num off = .ok (some w') →
      (∀ t, some s ≠ some t → w'.a t = w.a t) ∧ ∀ t, ((w'.a t).map fun a => (a.N, a.n)) = (w.a t).map fun a => (a.N, a.n) := by
    intro s t a o j num off ha h
    unfold Arr.step.load at h
    split at h
    · cases h
    · exact key s a _ ha h
  cases op with
  | new s N k v =>
    simp only [Arr.step] at hs
    cases ha : w.a s with
    | some a => rw [ha] at hs; cases hs
    | none => rw [ha] at hs; exact keep (lost _ hs)
  | copy s N t cst =>
    simp only [Arr.step] at hs
    cases ha : w.a s with
    | some a => rw [ha] at hs; cases hs
    | none =>
      rw [ha] at hs
      obtain ⟨o, -, hs⟩ := withA_ok hs
      split at hs
      · cases hs
      · exact keep (lost _ hs)
  | assign s t cst =>
    obtain ⟨a, ha, hs⟩ := withA_ok hs
    obtain ⟨o, -, hs⟩ := withA_ok hs
    split at hs
    · cases hs
    · split at hs
      · cases hs
      · exact key s a _ ha hs
  | set s i c =>
    obtain ⟨a, ha, hs⟩ := withA_ok hs
    exact key s a _ ha hs
  | poke s i r k v =>
    obtain ⟨a, ha, hs⟩ := withA_ok hs
    split at hs
    · cases hs
    · exact key s a _ ha hs
  | push s c =>
    obtain ⟨a, ha, hs⟩ := withA_ok hs
    split at hs
    · cases hs
    · exact key s a _ ha hs
  | load s t j num off =>
    obtain ⟨a, ha, hs⟩ := withA_ok hs
    obtain ⟨o, -, hs⟩ := withA_ok hs
    exact load s t a o j num off ha hs
  | append s t j num =>
    obtain ⟨a, ha, hs⟩ := withA_ok hs
    obtain ⟨o, -, hs⟩ := withA_ok hs
    exact load s t a o j num _ ha hs
  | get s i t => exact keep (obs _ _ hs)
  | back s t => exact keep (obs _ _ hs)
  | iter s t =>
    obtain ⟨a, ha, hs⟩ := withA_ok hs
    exact keep (obs _ _ hs)
  | _ => cases hs

/-! ### Constructors -/

theorem put_nonTriv {b : Block V} {a : Nat} {ty : Ty} (v : V) {x : Nat} (h : (b.get x).nonTriv = true)
    (hok : ty.triv = false ∨ b.noNT a ty.size = true) : ((b.put a ty v).get x).nonTriv = true := by
  unfold Block.put
  simp only
  split
  · rename_i hx
    rcases hok with hty | hn
    · simp [MByte.nonTriv, hty]
    · have := (Block.noNT_iff _ _ _).1 hn (x - a) (by omega)
      rw [show a + (x - a) = x by omega, h] at this
      cases this
  · exact h

/-- Nothing but a destructor ends the life of a member. -/
theorem exec_nonTriv {src : Block V → Block V} {o : MemOp V} (ho : ∀ A ty, o ≠ .destroy A ty) {b b' : Block V} (h : exec src o b = .ok b') :
    b'.size = b.size ∧ ∀ x, (b.get x).nonTriv = true → (b'.get x).nonTriv = true := by
  have asg : ∀ (a : Int) (ty : Ty) (v : V), b.assign a ty v = .ok b' → b'.size = b.size ∧ ∀ x, (b.get x).nonTriv = true → (b'.get x).nonTriv = true := by
    intro a ty v h
    unfold Block.assign at h
    by_cases h1 : b.inB a ty.size = true
    · rw [if_pos h1] at h
      by_cases h2 : (if ty.triv then b.noNT a.toNat ty.size else (b.rd a.toNat ty).isSome) = true
      · rw [if_pos h2] at h
        cases h
        refine ⟨rfl, fun x hx => put_nonTriv v hx ?_⟩
        cases hty : ty.triv with
        | false => exact .inl rfl
        | true => rw [hty, if_pos rfl] at h2; exact .inr h2
      · rw [if_neg h2] at h; cases h
    · rw [if_neg h1] at h; cases h
  cases o with
  | assign a ty v => exact asg a ty v h
  | construct a ty v =>
    have h : b.construct a ty v = .ok b' := h
    unfold Block.construct at h
    split at h
    · split at h
      · rename_i hn
        cases h
        exact ⟨rfl, fun x hx => put_nonTriv v hx (.inr hn)⟩
      · cases h
    · cases h
  | destroy a ty => exact absurd rfl (ho a ty)
  | copy sa a ty =>
    simp only [exec, MemOp.exec] at h
    cases hr : (src b).read sa ty with
    | error e => rw [hr] at h; cases h
    | ok v => rw [hr] at h; exact asg a ty v h
  | oob => cases h

theorem runL_nonTriv {src : Block V → Block V} : ∀ {ops : List (MemOp V)} (_ : ∀ o ∈ ops, ∀ A ty, o ≠ .destroy A ty) {b b' : Block V},
    runL (exec src) ops b = .ok b' → b'.size = b.size ∧ ∀ x, (b.get x).nonTriv = true → (b'.get x).nonTriv = true
  | [], _, b, b', h => by cases h; exact ⟨rfl, fun _ h => h⟩
  | o :: ops, ho, b, b', h => by
    simp only [runL] at h
    cases h1 : exec src o b with
    | error e => rw [h1] at h; cases h
    | ok b1 =>
      rw [h1] at h
      obtain ⟨k1, k2⟩ := exec_nonTriv (ho o (by simp)) h1
      obtain ⟨j1, j2⟩ := runL_nonTriv (fun o ho' => ho o (by simp [ho'])) h
      exact ⟨j1.trans k1, fun x hx => j2 x (k2 x hx)⟩

/-- A member which was constructed before the exception is still alive. -/
theorem upTo_leak {src : Block V → Block V} {ops : List (MemOp V)} (hno : ∀ o ∈ ops, ∀ A ty, o ≠ .destroy A ty) {n n' : Nat} (hn : n' < n)
    {A : Int} {ty : Ty} {v : V} (ho : ops[n']? = some (.construct A ty v)) (hty : ty.triv = false) (hsz : 0 < ty.size) {u : Option V}
    {b b' : Block V} (h : Throwing.upTo src ops n u b = .ok (some b')) : ∃ i, i < b'.size ∧ (b'.get i).nonTriv = true := by
  unfold Throwing.upTo at h
  cases hop : ops[n]? with
  | none => rw [hop] at h; cases h
  | some o =>
    rw [hop] at h
    simp only at h
    split at h
    · cases hr : runL (exec src) (ops.take n) b with
      | error e => rw [hr] at h; cases h
      | ok b1 =>
        rw [hr] at h
        have hlt : n' < (ops.take n).length := by
          have := (List.getElem?_eq_some_iff.1 ho).1
          rw [List.length_take]; omega
        have hel : (ops.take n)[n'] = .construct A ty v := by
          rw [List.getElem_take]; exact (List.getElem?_eq_some_iff.1 ho).2
        have hsplit : ops.take n = (ops.take n).take n' ++ (MemOp.construct A ty v :: (ops.take n).drop (n' + 1)) := by
          rw [← hel, ← List.drop_eq_getElem_cons hlt, List.take_append_drop]
        rw [hsplit, runL_append] at hr
        cases h1 : runL (exec src) ((ops.take n).take n') b with
        | error e => rw [h1] at hr; cases hr
        | ok b2 =>
          rw [h1] at hr
          simp only [Except.bind, runL] at hr
          cases h2 : exec src (MemOp.construct A ty v) b2 with
          | error e => rw [h2] at hr; cases hr
          | ok b3 =>
            rw [h2] at hr
            obtain ⟨k1, k2⟩ := runL_nonTriv (fun o ho => hno o (List.mem_of_mem_take (List.mem_of_mem_drop ho))) hr
            have h2' : b2.construct A ty v = .ok b3 := h2
            have hin : A.toNat < b3.size ∧ (b3.get A.toNat).nonTriv = true := by
              unfold Block.construct at h2'
              split at h2'
              · rename_i hb
                split at h2'
                · cases h2'
                  simp only [Block.inB, Bool.and_eq_true, decide_eq_true_eq] at hb
                  refine ⟨by show A.toNat < b2.size; omega, ?_⟩
                  simp only [Block.put]
                  rw [if_pos ⟨Nat.le_refl _, by omega⟩]
                  simp [MByte.nonTriv, hty]
                · cases h2'
              · cases h2'
            have hb1 : A.toNat < b1.size ∧ (b1.get A.toNat).nonTriv = true := ⟨by rw [k1]; exact hin.1, k2 _ hin.2⟩
            simp only [Except.bind] at h
            cases hfl : failed src u o b1 with
            | error e => rw [hfl] at h; cases h
            | ok b4 =>
              rw [hfl] at h
              cases h
              unfold failed at hfl
              cases hex : exec src o b1 with
              | error e => rw [hex] at hfl; cases hfl
              | ok b5 =>
                rw [hex] at hfl
                simp only [Except.bind] at hfl
                have fin : ∀ (a : Int) (t : Ty) (x : V), b1.assign a t x = .ok b' → ∃ i, i < b'.size ∧ (b'.get i).nonTriv = true := by
                  intro a t x h
                  obtain ⟨e1, e2⟩ := exec_nonTriv (src := src) (o := .assign a t x) (by intro _ _ h; cases h) h
                  exact ⟨_, by rw [e1]; exact hb1.1, e2 _ hb1.2⟩
                split at hfl
                · exact fin _ _ _ hfl
                · exact fin _ _ _ hfl
                · cases hfl; exact ⟨_, hb1⟩
    · cases h

theorem construct_at {N n : Nat} (h : ArrSpec.throws L (ArrSpec.byStruct L N) n = true) :
    ∃ A m v, (Arr.constructList L N)[n]? = some (.construct A m.ty v) ∧ m.ty.triv = false ∧ m ∈ L := by
  have H := Arr.constructList_kind L N
  unfold ArrSpec.throws at h
  cases hk : (ArrSpec.byStruct L N)[n]? with
  | none => rw [hk] at h; cases h
  | some p =>
    rw [hk] at h
    have hlt := (List.getElem?_eq_some_iff.1 hk).1
    have hlt' : n < (Arr.constructList L N).length := by rw [H.length_eq]; exact hlt
    obtain ⟨m, hm, ht⟩ := H.get (i := n) hlt' hlt
    simp only [List.get_eq_getElem] at hm ht
    rw [(List.getElem?_eq_some_iff.1 hk).2] at hm
    simp only [hm, Bool.not_eq_true'] at h
    have hmem : (Arr.constructList L N)[n] ∈ Arr.constructList L N := List.getElem_mem hlt'
    unfold Arr.constructList at hmem
    rw [List.mem_flatMap] at hmem
    obtain ⟨i, -, hmem⟩ := hmem
    unfold constructOps at hmem
    rw [List.mem_map] at hmem
    obtain ⟨q, -, hq⟩ := hmem
    have hq' : ∃ A v, (Arr.constructList L N)[n] = .construct A q.2.1.ty v := ⟨_, _, hq.symm⟩
    obtain ⟨A, v, hq'⟩ := hq'
    rw [hq'] at ht
    simp only [objTy, Option.some.injEq] at ht
    exact ⟨A, m, v, by rw [List.getElem?_eq_getElem hlt', hq', ht], h, List.mem_of_getElem? hm⟩

theorem no_destroy {L : Layout V} {ops : List (MemOp V)} : (∀ N, ops = Arr.constructList L N → ∀ o ∈ ops, ∀ A ty, o ≠ .destroy A ty) ∧
    (∀ N k v, ops = Arr.fillList L N k v → ∀ o ∈ ops, ∀ A ty, o ≠ .destroy A ty) ∧
    ∀ N M m, ops = Arr.copyList L N M m → ∀ o ∈ ops, ∀ A ty, o ≠ .destroy A ty := by
  refine ⟨?_, ?_, ?_⟩
  · rintro N rfl o ho A ty rfl
    simp [Arr.constructList, constructOps] at ho
  · rintro N k v rfl o ho A ty rfl
    simp [Arr.fillList, setOps] at ho
  · rintro N M m rfl o ho A ty rfl
    unfold Arr.copyList at ho
    rw [List.mem_flatMap] at ho
    obtain ⟨q, -, ho⟩ := ho
    rw [List.mem_map] at ho
    obtain ⟨i, -, ho⟩ := ho
    unfold copyOp at ho
    split at ho <;> cases ho

/-- A constructor which fills an array is left by an exception of a member: members which have been constructed already are never
    destroyed. -/
theorem C68_false_array_new (hL : L.WF) {w w' : ArrWorld V} {n n' : Nat} {u : Option V} {s N k : Nat} {v : Cell V} (hn : n' < n)
    (ht : ArrSpec.throws L (ArrSpec.byStruct L N) n' = true) (h : Arr.step L w n u (.new s N k v) = .ok (some w')) :
    ∃ b i, w'.a = w.a ∧ w'.gone = b :: w.gone ∧ i < b.size ∧ (b.get i).nonTriv = true := by
  simp only [Arr.step] at h
  split at h
  · cases h
  · obtain ⟨A, m, x, h1, h2, h3⟩ := construct_at ht
    unfold Arr.step.lost at h
    cases hu : Throwing.upTo (fun b => b) (Arr.constructList L N ++ Arr.fillList L N (toInt32 k).toNat v) n u (Block.fresh (aggSize L * N)) with
    | error e => rw [hu] at h; cases h
    | ok ob =>
      rw [hu] at h
      cases ob with
      | none => cases h
      | some b =>
        cases h
        obtain ⟨r, hr⟩ := List.mem_iff_getElem?.mp h3
        obtain ⟨i, i1, i2⟩ := upTo_leak (fun o ho => (List.mem_append.1 ho).elim (no_destroy.1 N rfl o) (no_destroy.2.1 N _ v rfl o)) hn
          (by rw [List.getElem?_append_left (List.getElem?_eq_some_iff.1 h1).1]; exact h1) h2 (hL.size_pos hr) hu
        exact ⟨b, i, rfl, rfl, i1, i2⟩

/-- So do copy constructors. -/
theorem C68_false_array_copy (hL : L.WF) {w w' : ArrWorld V} {n n' : Nat} {u : Option V} {s N t : Nat} {cst : Bool} (hn : n' < n)
    (ht : ArrSpec.throws L (ArrSpec.byStruct L N) n' = true) (h : Arr.step L w n u (.copy s N t cst) = .ok (some w')) :
    ∃ b i, w'.a = w.a ∧ w'.gone = b :: w.gone ∧ i < b.size ∧ (b.get i).nonTriv = true := by
  simp only [Arr.step] at h
  split at h
  · cases h
  · obtain ⟨o, -, h⟩ := withA_ok h
    split at h
    · cases h
    · obtain ⟨A, m, x, h1, h2, h3⟩ := construct_at ht
      unfold Arr.step.lost at h
      cases hu : Throwing.upTo (fun _ => o.data) (Arr.constructList L N ++ if o.n > N then [] else Arr.copyList L N o.N o.n) n u
          (Block.fresh (aggSize L * N)) with
      | error e => rw [hu] at h; cases h
      | ok ob =>
        rw [hu] at h
        cases ob with
        | none => cases h
        | some b =>
          cases h
          obtain ⟨r, hr⟩ := List.mem_iff_getElem?.mp h3
          have hno : ∀ x ∈ Arr.constructList L N ++ (if o.n > N then [] else Arr.copyList L N o.N o.n), ∀ A ty, x ≠ .destroy A ty := by
            intro x hx
            rcases List.mem_append.1 hx with hx | hx
            · exact no_destroy.1 N rfl x hx
            · split at hx
              · simp at hx
              · exact no_destroy.2.2 N _ _ rfl x hx
          obtain ⟨i, i1, i2⟩ := upTo_leak hno hn (by rw [List.getElem?_append_left (List.getElem?_eq_some_iff.1 h1).1]; exact h1) h2
            (hL.size_pos hr) hu
          exact ⟨b, i, rfl, rfl, i1, i2⟩

/-! ### Examples -/

/-- Two structs, then `push_back`, `append` and assignments in which the non-trivial member throws; the program goes on. -/
def demoThrow : List (ArrOp Int × Option (Nat × Option Int)) :=
  [(.new 0 4 1 demoCell, none), (.push 0 demoCell, some (4, none)), (.push 0 (fun _ _ => 5), none), (.set 0 1 (fun _ _ => 8), some (4, some 3)),
   (.new 1 4 0 demoCell, some (9, none)), (.new 1 4 0 demoCell, none), (.assign 1 0 false, some (9, none)), (.append 1 0 0 2, some (8, none)),
   (.append 1 0 0 2, none), (.load 1 0 0 1 1, some (4, some 6)), (.size 1, none), (.iter 1 (fun _ _ => 0), some (4, none))]

theorem demoThrow_spec : ∃ σ outs, ArrSpec.runFail demoL ArrSpec.start demoThrow = some (σ, outs) := ⟨_, _, rfl⟩

example : ∃ w outs, Arr.run demoL ArrWorld.init demoThrow = .ok (w, outs) := by
  obtain ⟨σ, outs, h⟩ := demoThrow_spec
  obtain ⟨w, h⟩ := C68_array_history_partial demoL_WF 0 h
  exact ⟨w, outs, h⟩

/-- The operation is legal and does throw. -/
def Throws (w : ArrWorld Int) (n : Nat) (op : ArrOp Int) : Prop :=
  ArrAllowed demoL w n none op ∧ ∃ w', Arr.step demoL w n none op = .ok (some w')

/-- A state in which the theorems above apply to all kinds of operations. -/
theorem demo_throws_array : ∃ w : ArrWorld Int, (∃ l, ListIs demoL w 0 4 l ∧ l.length = 2) ∧ (∃ l, ListIs demoL w 1 4 l ∧ l.length = 2) ∧
    Throws w 4 (.push 0 demoCell) ∧ Throws w 9 (.append 1 0 0 2) ∧ Throws w 4 (.set 0 1 demoCell) ∧ Throws w 0 (.poke 1 0 2 0 7) ∧
    Throws w 9 (.assign 0 1 false) ∧ Throws w 9 (.load 0 1 0 2 1) ∧ Throws w 9 (.new 2 3 0 demoCell) ∧ Throws w 9 (.copy 2 3 0 false) ∧
    ArrSpec.throws demoL (ArrSpec.byStruct demoL 3) 4 = true := by
  obtain ⟨w, h1, hR⟩ := throw_run_refines (L := demoL) demoL_WF 0 [(.new 0 4 1 demoCell, none), (.push 0 demoCell, some (4, none)),
    (.push 0 (fun _ _ => 5), none), (.new 1 4 0 demoCell, none), (.append 1 0 0 2, none)] (ArrR.init demoL) (σ' := _) (outs := _) rfl
  obtain ⟨a, ha, hrep⟩ := hR.arr (s := 0) rfl
  obtain ⟨a', ha', hrep'⟩ := hR.arr (s := 1) rfl
  have key : ∀ (n : Nat) (op : ArrOp Int) σ', ArrSpec.fail demoL _ n none op = some (some σ') → Throws w n op := fun n op σ' h => by
    refine ⟨⟨_, _, _, _, rfl, h1, h⟩, ?_⟩
    obtain ⟨r', k1, k2⟩ := Arr.fail_refines demoL_WF 0 hR n none h
    cases r' with
    | none => exact absurd k2 id
    | some w' => exact ⟨w', k1⟩
  exact ⟨w, ⟨_, ListIs.of_rep demoL_WF ha hrep, rfl⟩, ⟨_, ListIs.of_rep demoL_WF ha' hrep', rfl⟩, key _ _ _ rfl, key _ _ _ rfl, key _ _ _ rfl,
    key _ _ _ rfl, key _ _ _ rfl, key _ _ _ rfl, key _ _ _ rfl, key _ _ _ rfl, rfl⟩

example : ∃ (w w' : ArrWorld Int) (l : List (Cell Int)), l.length = 2 ∧ Arr.step demoL w 4 none (.push 0 demoCell) = .ok (some w') ∧
    ListIs demoL w' 0 4 l := by
  obtain ⟨w, ⟨l, hl, hlen⟩, -, ⟨ha, w', hs⟩, -⟩ := demo_throws_array
  exact ⟨w, w', l, hlen, hs, C68_array_push_partial demoL_WF 0 ha hs hl⟩

example : ∃ (w w' : ArrWorld Int) (b : Block Int) (i : Nat), Arr.step demoL w 9 none (.new 2 3 0 demoCell) = .ok (some w') ∧ w'.a = w.a ∧
    w'.gone = b :: w.gone ∧ i < b.size ∧ (b.get i).nonTriv = true := by
  obtain ⟨w, -, -, -, -, -, -, -, -, ⟨-, w', hs⟩, -, ht⟩ := demo_throws_array
  obtain ⟨b, i, h⟩ := C68_false_array_new demoL_WF (by omega) ht hs
  exact ⟨w, w', b, i, hs, h⟩

end
end LFA.Props
