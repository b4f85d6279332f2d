import Verif.SoaVectorList
import Verif.CopyPad
import Verif.SoaVectorStride
import Verif.Demo
import Verif.Props.SoaArray

/-
  C28–C34: soa_vector.
-/
set_option linter.unusedSectionVars false
set_option linter.unusedVariables false
namespace LFA.Props
open LFA

section
variable {V : Type} [DecidableEq V] {C : Cfg V} {dv : V}

/-! ### Vocabulary -/

/-- The state `w` is reached by a program which respects the contracts of `VecList` (no copies). -/
def VecValid (C : Cfg V) (dv : V) (w : VecWorld V) : Prop :=
  ∃ ops outs, VecList.Legal C dv VecList.start ops ∧ VecWorld.init.run C ops = .ok (w, outs)

/-- The state `w` is reached by a program which may also copy and assign vectors. -/
def VecProg (C : Cfg V) (dv : V) (w : VecWorld V) : Prop :=
  ∃ ops σ outs, VecSpec.run C dv VecSpec.start ops = some (σ, outs) ∧ VecWorld.init.run C ops = .ok (w, outs)

/-- Vector `s` reports `l.length` elements, and reading element `i` (into any struct `t`) yields `l[i]`. -/
structure VecIs (C : Cfg V) (w : VecWorld V) (s : Nat) (l : List (Cell V)) : Prop where
  size : w.step C (.size s) = .ok (w, .nat l.length)
  get : ∀ (i : Nat) (c : Cell V), l[i]? = some c → ∀ t, w.step C (.get s i t) = .ok (w, .cells [overlay C.L c t])

/-- The program performs the operation `op`: no undefined behaviour. -/
def Steps (C : Cfg V) (w : VecWorld V) (op : VecOp V) (w' : VecWorld V) (out : ArrOut V) : Prop := w.step C op = .ok (w', out)

/-- The vector an operation modifies. -/
def target : VecOp V → Nat
  | .new s _ | .newFill s _ _ | .copy s _ | .assign s _ | .destroy s | .set s _ _ | .get s _ _ | .push s _ | .pop s _ | .clear s
  | .resize s _ | .reserve s _ | .size s | .capacity s | .empty s | .poke s _ _ _ _ _ | .peek s _ _ _ _ => s

/-! ### Helpers -/

/-- Lists which cannot be distinguished by reading elements. -/
def SameList (L : Layout V) (l l' : List (Cell V)) : Prop :=
  l.length = l'.length ∧ ∀ (i : Nat) c c', l[i]? = some c → l'[i]? = some c' → ∀ t, overlay L c t = overlay L c' t

theorem VecIs.same {w : VecWorld V} {s : Nat} {l l' : List (Cell V)} (h : VecIs C w s l) (h' : VecIs C w s l') :
    SameList C.L l l' := by
  have e := h.size
  rw [h'.size] at e
  simp only [Except.ok.injEq, Prod.mk.injEq, true_and, ArrOut.nat.injEq] at e
  refine ⟨e.symm, fun i c c' hc hc' t => ?_⟩
  have e := h.get i c hc t
  rw [h'.get i c' hc' t] at e
  simp only [Except.ok.injEq, Prod.mk.injEq, true_and, ArrOut.cells.injEq, List.cons.injEq, and_true] at e
  exact e.symm

theorem VecIs.transfer {w : VecWorld V} {s : Nat} {l l' : List (Cell V)} (h : VecIs C w s l) (h' : SameList C.L l l') :
    VecIs C w s l' := by
  refine ⟨by rw [← h'.1]; exact h.size, fun i c hc t => ?_⟩
  obtain ⟨hi, _⟩ := List.getElem?_eq_some_iff.1 hc
  have hi' : i < l.length := by rw [h'.1]; exact hi
  have hg := List.getElem?_eq_getElem hi'
  rw [h.get i _ hg t, h'.2 i _ _ hg hc t]

theorem SameList.append {L : Layout V} {l l' : List (Cell V)} (h : SameList L l l') (c : Cell V) :
    SameList L (l ++ [c]) (l' ++ [c]) := by
  refine ⟨by simp [h.1], fun i a b ha hb t => ?_⟩
  by_cases hi : i < l.length
  · rw [List.getElem?_append_left hi] at ha
    rw [List.getElem?_append_left (by rw [← h.1]; exact hi)] at hb
    exact h.2 i a b ha hb t
  · rw [List.getElem?_append_right (by omega)] at ha
    rw [List.getElem?_append_right (by rw [← h.1]; omega), ← h.1] at hb
    rw [ha] at hb; cases hb; rfl

theorem SameList.set {L : Layout V} {l l' : List (Cell V)} (h : SameList L l l') (i : Nat) (c : Cell V) :
    SameList L (l.set i c) (l'.set i c) := by
  refine ⟨by simp [h.1], fun j a b ha hb t => ?_⟩
  by_cases hij : j = i
  · subst hij
    simp only [List.getElem?_set_self'] at ha hb
    cases hl : l[j]? with
    | none => rw [hl] at ha; cases ha
    | some x =>
      cases hl' : l'[j]? with
      | none => rw [hl'] at hb; cases hb
      | some y => rw [hl] at ha; rw [hl'] at hb; cases ha; cases hb; rfl
  · rw [List.getElem?_set_ne (Ne.symm hij)] at ha hb
    exact h.2 j a b ha hb t

theorem SameList.dropLast {L : Layout V} {l l' : List (Cell V)} (h : SameList L l l') : SameList L l.dropLast l'.dropLast := by
  refine ⟨by simp [h.1], fun j a b ha hb t => ?_⟩
  rw [List.getElem?_dropLast] at ha hb
  split at ha
  · split at hb
    · exact h.2 j a b ha hb t
    · cases hb
  · cases ha

theorem SameList.take {L : Layout V} {l l' : List (Cell V)} (h : SameList L l l') (n : Nat) : SameList L (l.take n) (l'.take n) := by
  refine ⟨by simp [h.1], fun j a b ha hb t => ?_⟩
  rw [List.getElem?_take] at ha hb
  split at ha
  · rename_i hj; rw [if_pos hj] at hb; exact h.2 j a b ha hb t
  · cases ha

theorem vec_get_ok (hL : C.L.WF) (h1 : OneD C.tr) (dv : V) {w : VecWorld V} {τ : VecSpec.State V} (hR : VR C w τ) {s : Nat} {a : AVec V}
    (ha : τ s = some a) {i : Nat} {c : Cell V} (hc : a.cells i = some c) (t : Cell V) :
    w.step C (.get s i t) = .ok (w, .cells [overlay C.L c t]) := by
  obtain ⟨g, hg, hok⟩ := hR.vec ha
  have hid : w.v = World.upd w.v s (some ⟨g, a.n⟩) := by rw [← hg, upd_id]
  have he := hok.get hL hc t
  simp only [VecWorld.step, VecWorld.withV, hg, SVec.get, he, Res.withVec, VecWorld.ofVS]
  rw [← hid]

theorem VecIs.of_lists (hL : C.L.WF) (h1 : OneD C.tr) {w : VecWorld V} {τ : VecSpec.State V} {σ : VecList.State V} (hR : VR C w τ)
    (h : VL C τ σ) {s : Nat} {l : List (Cell V)} (hs : σ s = some l) (dv : V) : VecIs C w s l := by
  obtain ⟨a, ha, hA⟩ := h.vec hs
  obtain ⟨g, hg, hok⟩ := hR.vec ha
  refine ⟨by simp only [VecWorld.step, VecWorld.withV, hg, hA.len], fun i c hc t => ?_⟩
  have hi := (List.getElem?_eq_some_iff.1 hc).1
  exact vec_get_ok hL h1 dv hR ha (by rw [hA.cells i hi, hc]) t

theorem VL.init : VL C (VecSpec.start : VecSpec.State V) VecList.start := fun s => rfl

theorem VecValid.refines (hL : C.L.WF) (h1 : OneD C.tr) (hr : Roomy C.tr) {w : VecWorld V} (h : VecValid C dv w) :
    ∃ τ σ, VR C w τ ∧ VL C τ σ := by
  obtain ⟨ops, outs, hleg, hrun⟩ := h
  obtain ⟨w', outs', τ, σ, k1, _, k3, k4⟩ := list_run hL h1 hr dv ops VR.init VL.init hleg
  rw [hrun] at k1
  injection k1 with k1; injection k1 with k1 _
  subst k1
  exact ⟨τ, σ, k3, k4⟩

theorem VecProg.refines (hL : C.L.WF) (h1 : OneD C.tr) {w : VecWorld V} (h : VecProg C dv w) : ∃ τ, VR C w τ := by
  obtain ⟨ops, σ, outs, hs, hrun⟩ := h
  obtain ⟨w', k1, k2⟩ := vec_run_refines hL h1 dv ops VR.init hs
  rw [hrun] at k1
  injection k1 with k1; injection k1 with k1 _
  subst k1
  exact ⟨σ, k2⟩

theorem VecIs.list (hL : C.L.WF) (h1 : OneD C.tr) {w : VecWorld V} {τ : VecSpec.State V} {σ : VecList.State V} (hR : VR C w τ)
    (h : VL C τ σ) {s : Nat} {l : List (Cell V)} (hs : VecIs C w s l) (dv : V) : ∃ l0, σ s = some l0 ∧ SameList C.L l0 l := by
  cases hl : σ s with
  | some l0 => exact ⟨l0, rfl, (VecIs.of_lists hL h1 hR h hl dv).same hs⟩
  | none =>
    have := hs.size
    simp only [VecWorld.step, VecWorld.withV, hR.absent (h.absent hl)] at this
    cases this

/-- Operations affect one vector. -/
theorem post_frame {σ σ' : VecList.State V} {op : VecOp V} {out : ArrOut V} (h : VecList.Post C dv σ op σ' out) {t : Nat}
    (ht : t ≠ target op) : σ' t = σ t := by
  have hu : ∀ s x, t ≠ s → World.upd σ s x t = σ t := fun s x hs => upd_ne _ _ hs
  have hal : ∀ n s x, t ≠ s → VecList.Alloc C n σ σ' out (σ' = World.upd σ s x) → σ' t = σ t := by
    intro n s x hs ha
    unfold VecList.Alloc at ha
    split at ha
    · rw [ha.2]
    · rw [ha.2, hu s x hs]
  cases op with
  | new s n => exact hal n s _ ht h
  | newFill s n c => exact hal n s _ ht h
  | destroy s => rw [h.2]; exact hu _ _ ht
  | set s i c => obtain ⟨l, _, _, rfl⟩ := h; exact hu _ _ ht
  | get s i x => obtain ⟨l, c, _, _, _, rfl⟩ := h; rfl
  | push s c =>
    obtain ⟨l, _, h | ⟨e, _, _, _, rfl⟩⟩ := h
    · rw [h.2]; exact hu _ _ ht
    · rfl
  | pop s td => obtain ⟨l, _, _, rfl⟩ := h; exact hu _ _ ht
  | clear s => rw [h.2]; exact hu _ _ ht
  | resize s m =>
    obtain ⟨l, _, ⟨l', _, h, _⟩ | ⟨e, _, _, _, rfl⟩⟩ := h
    · rw [h]; exact hu _ _ ht
    · rfl
  | reserve s m =>
    simp only [VecList.Post, VecList.Alloc] at h
    split at h
    · rw [h.2]
    · rw [h.2]
  | size s => obtain ⟨l, _, _, rfl⟩ := h; rfl
  | empty s => obtain ⟨l, _, _, rfl⟩ := h; rfl
  | poke s x X r k v => obtain ⟨l, c, _, _, _, rfl⟩ := h; exact hu _ _ ht
  | peek s x X r k => obtain ⟨l, c, _, _, _, rfl⟩ := h; rfl
  | capacity s => exact h.elim
  | copy s t => exact h.elim
  | assign s t => exact h.elim

/-! ### C28: soa_vector behaves like a list of structs -/

/-- C28: every program that creates, reads and modifies soa_vectors within the contracts `VecList.Pre` runs without undefined
    behaviour, and all it observes is what lists of structs (`VecList.Post`) show. Missing in comparison with C28: elements added by
    `resize` have unspecified values (`C28_false`), and vectors of structs with non-trivial members have to be created with a size
    of the size table (`C33_false`). -/
theorem C28_history_partial (hL : C.L.WF) (h1 : OneD C.tr) (hr : Roomy C.tr) (ops : List (VecOp V))
    (hleg : VecList.Legal C dv VecList.start ops) :
    ∃ w outs σ, VecWorld.init.run C ops = .ok (w, outs) ∧ VecList.Run C dv VecList.start ops outs σ := by
  obtain ⟨w, outs, τ, σ, k1, k2, _⟩ := list_run hL h1 hr dv ops VR.init VL.init hleg
  exact ⟨w, outs, σ, k1, k2⟩

/-- C28 for types without size traits. -/
theorem C28_history_dflt_partial {L : Layout V} {asym : Bool} (hL : L.WF) (ops : List (VecOp V))
    (hleg : VecList.Legal ⟨L, .dflt, asym⟩ dv VecList.start ops) :
    ∃ w outs σ, VecWorld.init.run ⟨L, .dflt, asym⟩ ops = .ok (w, outs) ∧
      VecList.Run ⟨L, .dflt, asym⟩ dv VecList.start ops outs σ :=
  C28_history_partial hL OneD.dflt Roomy.dflt ops hleg

/-- C28: construction. -/
theorem C28_new (hL : C.L.WF) (h1 : OneD C.tr) (hr : Roomy C.tr) {w : VecWorld V} (hV : VecValid C dv w) {s : Nat}
    (hs : w.v s = none) {n : Nat} {e : Ext} (he : selectSizes C.tr ⟨n, 1, 1⟩ = .ok e)
    (hc : ArrSpec.trivial C.L = true ∨ e = ⟨n, 1, 1⟩) :
    ∃ w', Steps C w (.new s n) w' .unit ∧ VecIs C w' s (List.replicate n (dfltCell C.L dv)) := by
  obtain ⟨τ, σ, hR, h⟩ := hV.refines hL h1 hr
  have hn : σ s = none := by
    cases hl : σ s with
    | none => rfl
    | some l =>
      obtain ⟨a, ha, _⟩ := h.vec hl
      obtain ⟨g, hg, _⟩ := hR.vec ha
      rw [hs] at hg; cases hg
  obtain ⟨τ', out, σ', e1, e2, e3⟩ := list_step h1 hr dv hR h (.new s n) ⟨hn, hc.imp id (fun h => by rw [he, h])⟩
  obtain ⟨w', e4, hR'⟩ := vec_step_refines hL h1 dv hR _ e1
  simp only [VecList.Post, VecList.Alloc, he] at e2
  obtain ⟨rfl, rfl⟩ := e2
  exact ⟨w', e4, VecIs.of_lists hL h1 hR' e3 (upd_self _ _ _) dv⟩

/-- C28: `set(i, c)`. -/
theorem C28_set (hL : C.L.WF) (h1 : OneD C.tr) (hr : Roomy C.tr) {w : VecWorld V} (hV : VecValid C dv w) {s : Nat}
    {l : List (Cell V)} (hs : VecIs C w s l) {i : Nat} (hi : i < l.length) (c : Cell V) :
    ∃ w', Steps C w (.set s i c) w' .unit ∧ VecIs C w' s (l.set i c) := by
  obtain ⟨τ, σ, hR, h⟩ := hV.refines hL h1 hr
  obtain ⟨l0, hl0, hsame⟩ := hs.list hL h1 hR h dv
  obtain ⟨τ', out, σ', e1, e2, e3⟩ := list_step h1 hr dv hR h (.set s i c) ⟨l0, hl0, by rw [hsame.1]; exact hi⟩
  obtain ⟨w', e4, hR'⟩ := vec_step_refines hL h1 dv hR _ e1
  obtain ⟨l1, hl1, rfl, rfl⟩ := e2
  rw [hl0] at hl1; cases hl1
  exact ⟨w', e4, (VecIs.of_lists hL h1 hR' e3 (upd_self _ _ _) dv).transfer (hsame.set i c)⟩

/-- C28: `pop_back()`. -/
theorem C28_pop (hL : C.L.WF) (h1 : OneD C.tr) (hr : Roomy C.tr) {w : VecWorld V} (hV : VecValid C dv w) {s : Nat}
    {l : List (Cell V)} (hs : VecIs C w s l) (hne : l ≠ []) (td : Cell V) :
    ∃ w', Steps C w (.pop s td) w' .unit ∧ VecIs C w' s l.dropLast := by
  obtain ⟨τ, σ, hR, h⟩ := hV.refines hL h1 hr
  obtain ⟨l0, hl0, hsame⟩ := hs.list hL h1 hR h dv
  obtain ⟨τ', out, σ', e1, e2, e3⟩ := list_step h1 hr dv hR h (.pop s td)
    ⟨l0, hl0, by rw [← List.length_pos_iff, hsame.1, List.length_pos_iff]; exact hne⟩
  obtain ⟨w', e4, hR'⟩ := vec_step_refines hL h1 dv hR _ e1
  obtain ⟨l1, hl1, rfl, rfl⟩ := e2
  rw [hl0] at hl1; cases hl1
  exact ⟨w', e4, (VecIs.of_lists hL h1 hR' e3 (upd_self _ _ _) dv).transfer hsame.dropLast⟩

/-- C28: `clear()`. -/
theorem C28_clear (hL : C.L.WF) (h1 : OneD C.tr) (hr : Roomy C.tr) {w : VecWorld V} (hV : VecValid C dv w) {s : Nat}
    {l : List (Cell V)} (hs : VecIs C w s l) : ∃ w', Steps C w (.clear s) w' .unit ∧ VecIs C w' s [] := by
  obtain ⟨τ, σ, hR, h⟩ := hV.refines hL h1 hr
  obtain ⟨l0, hl0, hsame⟩ := hs.list hL h1 hR h dv
  obtain ⟨τ', out, σ', e1, e2, e3⟩ := list_step h1 hr dv hR h (.clear s) ⟨l0, hl0⟩
  obtain ⟨w', e4, hR'⟩ := vec_step_refines hL h1 dv hR _ e1
  obtain ⟨rfl, rfl⟩ := e2
  exact ⟨w', e4, VecIs.of_lists hL h1 hR' e3 (upd_self _ _ _) dv⟩

/-- C28: `resize(m)` to at most the current size keeps the first `m` elements. -/
theorem C28_shrink (hL : C.L.WF) (h1 : OneD C.tr) (hr : Roomy C.tr) {w : VecWorld V} (hV : VecValid C dv w) {s : Nat}
    {l : List (Cell V)} (hs : VecIs C w s l) {m : Nat} (hm : m ≤ l.length) :
    ∃ w', Steps C w (.resize s m) w' .unit ∧ VecIs C w' s (l.take m) := by
  obtain ⟨τ, σ, hR, h⟩ := hV.refines hL h1 hr
  obtain ⟨l0, hl0, hsame⟩ := hs.list hL h1 hR h dv
  obtain ⟨τ', out, σ', e1, e2, e3⟩ := list_step h1 hr dv hR h (.resize s m) ⟨l0, hl0⟩
  obtain ⟨w', e4, hR'⟩ := vec_step_refines hL h1 dv hR _ e1
  obtain ⟨l1, hl1, ⟨l', rfl, rfl, k1, k2⟩ | ⟨e, k1, _⟩⟩ := e2
  · rw [hl0] at hl1; cases hl1
    have : l' = l0.take m := by
      rw [← k2, List.take_of_length_le (by rw [k1, hsame.1]; exact hm)]
    subst this
    exact ⟨w', e4, (VecIs.of_lists hL h1 hR' e3 (upd_self _ _ _) dv).transfer (hsame.take m)⟩
  · rw [hl0] at hl1; cases hl1
    rw [hsame.1] at k1; omega

/-- C28: `resize(m)` to more elements keeps all elements; the values of the new ones are not specified. If the size tables have no
    room it throws, and nothing changes. -/
theorem C28_enlarge_partial (hL : C.L.WF) (h1 : OneD C.tr) (hr : Roomy C.tr) {w : VecWorld V} (hV : VecValid C dv w) {s : Nat}
    {l : List (Cell V)} (hs : VecIs C w s l) {m : Nat} (hm : l.length < m) :
    (∃ w' l', Steps C w (.resize s m) w' .unit ∧ VecIs C w' s (l ++ l') ∧ l.length + l'.length = m) ∨
    (∃ w' e, selectSizes C.tr ⟨m, 1, 1⟩ = .error e ∧ Steps C w (.resize s m) w' (.threw e) ∧ VecIs C w' s l) := by
  obtain ⟨τ, σ, hR, h⟩ := hV.refines hL h1 hr
  obtain ⟨l0, hl0, hsame⟩ := hs.list hL h1 hR h dv
  obtain ⟨τ', out, σ', e1, e2, e3⟩ := list_step h1 hr dv hR h (.resize s m) ⟨l0, hl0⟩
  obtain ⟨w', e4, hR'⟩ := vec_step_refines hL h1 dv hR _ e1
  obtain ⟨l1, hl1, ⟨l', rfl, rfl, k1, k2⟩ | ⟨e, k1, k2, rfl, rfl⟩⟩ := e2
  · rw [hl0] at hl1; cases hl1
    have hlen : l0.length = l.length := hsame.1
    rw [List.take_of_length_le (l := l0) (by omega)] at k2
    have hsplit : l' = l0 ++ l'.drop l0.length := by
      conv => lhs; rw [← List.take_append_drop l0.length l', k2]
    refine .inl ⟨w', l'.drop l0.length, e4, (VecIs.of_lists hL h1 hR' e3 (upd_self _ _ _) dv).transfer ?_, ?_⟩
    · have hap : ∀ x, SameList C.L (l0 ++ x) (l ++ x) := by
        intro x
        refine ⟨by simp [hlen], fun i a b ha hb t => ?_⟩
        by_cases hi : i < l0.length
        · rw [List.getElem?_append_left hi] at ha
          rw [List.getElem?_append_left (by omega)] at hb
          exact hsame.2 i a b ha hb t
        · rw [List.getElem?_append_right (by omega)] at ha
          rw [List.getElem?_append_right (by omega), ← hlen] at hb
          rw [ha] at hb; cases hb; rfl
      have := hap (l'.drop l0.length)
      rw [← hsplit] at this
      exact this
    · rw [List.length_drop, k1]; omega
  · exact .inr ⟨w', e, k2, e4, (VecIs.of_lists hL h1 hR' e3 hl0 dv).transfer hsame⟩

/-- C28: operations on one vector do not affect any other vector. -/
theorem C28_others (hL : C.L.WF) (h1 : OneD C.tr) (hr : Roomy C.tr) {ops : List (VecOp V)} {op : VecOp V} {w : VecWorld V}
    {outs : List (ArrOut V)} (hleg : VecList.Legal C dv VecList.start (ops ++ [op]))
    (hrun : VecWorld.init.run C ops = .ok (w, outs)) {t : Nat} (ht : t ≠ target op) {l : List (Cell V)} (hs : VecIs C w t l) :
    ∃ w' out, Steps C w op w' out ∧ VecIs C w' t l := by
  have split : ∀ (ops : List (VecOp V)) (σ : VecList.State V) (outs : List (ArrOut V)) (σ' : VecList.State V),
      VecList.Legal C dv σ (ops ++ [op]) → VecList.Run C dv σ ops outs σ' → VecList.Pre C σ' op := by
    intro ops
    induction ops with
    | nil => intro σ outs σ' hleg hr; obtain ⟨_, rfl⟩ := hr; exact hleg.1
    | cons o ops ih =>
      intro σ outs σ' hleg hr
      obtain ⟨out, outs', σ1, _, hp, hr⟩ := hr
      exact ih σ1 outs' σ' (hleg.2 σ1 out hp) hr
  have pre : ∀ (ops : List (VecOp V)) (σ : VecList.State V), VecList.Legal C dv σ (ops ++ [op]) → VecList.Legal C dv σ ops := by
    intro ops
    induction ops with
    | nil => intros; trivial
    | cons o ops ih => intro σ hl; exact ⟨hl.1, fun σ' out hp => ih σ' (hl.2 σ' out hp)⟩
  obtain ⟨w1, outs1, τ, σ, k1, k2, hR, h⟩ := list_run hL h1 hr dv ops VR.init VL.init (pre ops _ hleg)
  rw [hrun] at k1
  injection k1 with k1; injection k1 with k1 _
  subst k1
  obtain ⟨τ', out, σ', e1, e2, e3⟩ := list_step h1 hr dv hR h op (split ops _ _ _ hleg k2)
  obtain ⟨w', e4, hR'⟩ := vec_step_refines hL h1 dv hR _ e1
  obtain ⟨l0, hl0, hsame⟩ := hs.list hL h1 hR h dv
  refine ⟨w', out, e4, (VecIs.of_lists hL h1 hR' e3 (l := l0) ?_ dv).transfer hsame⟩
  rw [post_frame e2 ht, hl0]

/-! ### C29: push_back -/

/-- C29: from five elements on, `size_t(count * 1.2)` is larger than `count`. -/
theorem C29_growth {n : Nat} (h5 : 5 ≤ n) (hn : n < 2 ^ 53) : n < grow n := grow_gt h5 hn

example : grow 544 = 652 := by decide

/-- C29: `push_back` appends, or throws and changes nothing. The latter happens only if the vector is full (its size is one of the
    table) and there is no extent for a vector enlarged by 20%. As nothing of this is undefined behaviour, the element is written
    within the buffer. -/
theorem C29_push (hL : C.L.WF) (h1 : OneD C.tr) (hr : Roomy C.tr) {w : VecWorld V} (hV : VecValid C dv w) {s : Nat}
    {l : List (Cell V)} (hs : VecIs C w s l) (c : Cell V) :
    (∃ w', Steps C w (.push s c) w' .unit ∧ VecIs C w' s (l ++ [c])) ∨
    (∃ w' e, selectSizes C.tr ⟨l.length, 1, 1⟩ = .ok ⟨l.length, 1, 1⟩ ∧ selectSizes C.tr ⟨grow l.length, 1, 1⟩ = .error e ∧
      Steps C w (.push s c) w' (.threw e) ∧ VecIs C w' s l) := by
  obtain ⟨τ, σ, hR, h⟩ := hV.refines hL h1 hr
  obtain ⟨l0, hl0, hsame⟩ := hs.list hL h1 hR h dv
  obtain ⟨τ', out, σ', e1, e2, e3⟩ := list_step h1 hr dv hR h (.push s c) ⟨l0, hl0⟩
  obtain ⟨w', e4, hR'⟩ := vec_step_refines hL h1 dv hR _ e1
  obtain ⟨l1, hl1, ⟨rfl, rfl⟩ | ⟨e, k0, k1, rfl, rfl⟩⟩ := e2
  · rw [hl0] at hl1; cases hl1
    exact .inl ⟨w', e4, (VecIs.of_lists hL h1 hR' e3 (upd_self _ _ _) dv).transfer (hsame.append c)⟩
  · rw [hl0] at hl1; cases hl1
    exact .inr ⟨w', e, by rw [← hsame.1]; exact k0, by rw [← hsame.1]; exact k1, e4,
      (VecIs.of_lists hL h1 hR' e3 hl0 dv).transfer hsame⟩

theorem dflt_full {n e : Nat} (h : selectSizes .dflt ⟨n, 1, 1⟩ = .ok ⟨e, 1, 1⟩) : e ∈ sizes1D := by
  rw [selectDflt1] at h
  cases hf : firstFit n sizes1D with
  | none => rw [hf] at h; cases h
  | some s => rw [hf] at h; cases h; exact firstFit_mem hf

theorem dflt_max {n e : Nat} (h : selectSizes .dflt ⟨n, 1, 1⟩ = .ok ⟨e, 1, 1⟩) : e ≤ 1073741856 := by
  have hm := dflt_full h
  simp only [sizes1D, List.mem_cons, List.not_mem_nil, or_false] at hm
  omega

/-- Every size of the default table except for the last one can be exceeded. -/
theorem dflt_grows {n : Nat} (h : n ∈ sizes1D) (hn : n < 1073741856) : ∃ e, selectSizes .dflt ⟨grow n, 1, 1⟩ = .ok e := by
  simp only [sizes1D, List.mem_cons, List.not_mem_nil, or_false] at h
  have key : ∀ m, (∃ s, firstFit (grow m) sizes1D = some s) → ∃ e, selectSizes .dflt ⟨grow m, 1, 1⟩ = .ok e := by
    rintro m ⟨s, hs⟩
    exact ⟨⟨s, 1, 1⟩, by rw [selectDflt1, hs]⟩
  apply key
  rcases h with rfl | rfl | rfl | rfl | rfl | rfl | rfl | rfl | rfl | rfl | rfl | rfl | rfl | rfl | rfl | rfl | rfl | rfl | rfl |
    rfl | rfl | rfl | rfl | rfl | rfl | rfl | rfl | rfl <;>
    first | exact ⟨_, rfl⟩ | omega

/-- C29 for the default sizes: `push_back` succeeds as long as there are less than 1073741856 elements, and throws
    `std::out_of_range` if there are 1073741856. -/
theorem C29_push_dflt {L : Layout V} {asym : Bool} (hL : L.WF) {w : VecWorld V} (hV : VecValid ⟨L, .dflt, asym⟩ dv w) {s : Nat}
    {l : List (Cell V)} (hs : VecIs ⟨L, .dflt, asym⟩ w s l) (c : Cell V) :
    l.length ≤ 1073741856 ∧
    (l.length < 1073741856 → ∃ w', Steps ⟨L, .dflt, asym⟩ w (.push s c) w' .unit ∧ VecIs ⟨L, .dflt, asym⟩ w' s (l ++ [c])) ∧
    (l.length = 1073741856 → ∃ w' msg, Steps ⟨L, .dflt, asym⟩ w (.push s c) w' (.threw (.outOfRange msg)) ∧
      VecIs ⟨L, .dflt, asym⟩ w' s l) := by
  have bound : ∀ {w : VecWorld V} {τ : VecSpec.State V} {σ : VecList.State V}, VR ⟨L, .dflt, asym⟩ w τ →
      VL ⟨L, .dflt, asym⟩ τ σ → ∀ {l : List (Cell V)}, σ s = some l → l.length ≤ 1073741856 := by
    intro w τ σ hR h l hl
    obtain ⟨a, ha, hA⟩ := h.vec hl
    obtain ⟨g, _, hok⟩ := hR.vec ha
    have := dflt_max hok.sel
    have := hA.fit
    have := hA.len
    omega
  obtain ⟨τ, σ, hR, h⟩ := hV.refines hL OneD.dflt Roomy.dflt
  obtain ⟨l0, hl0, hsame⟩ := hs.list hL OneD.dflt hR h dv
  have hlen := hsame.1
  have hb := bound hR h hl0
  obtain ⟨τ', out, σ', e1, e2, e3⟩ := list_step OneD.dflt Roomy.dflt dv hR h (.push s c) ⟨l0, hl0⟩
  obtain ⟨w', e4, hR'⟩ := vec_step_refines hL OneD.dflt dv hR _ e1
  obtain ⟨l1, hl1, ⟨rfl, rfl⟩ | ⟨e, k0, k1, rfl, rfl⟩⟩ := e2
  · rw [hl0] at hl1; cases hl1
    have hb' := bound hR' e3 (upd_self _ _ _)
    simp only [List.length_append, List.length_singleton] at hb'
    exact ⟨by omega, fun _ => ⟨w', e4, (VecIs.of_lists hL OneD.dflt hR' e3 (upd_self _ _ _) dv).transfer (hsame.append c)⟩,
      fun h => by omega⟩
  · rw [hl0] at hl1; cases hl1
    refine ⟨by omega, fun hlt => ?_, fun _ => ?_⟩
    · obtain ⟨e', he'⟩ := dflt_grows (dflt_full k0) (by omega)
      have k1' : selectSizes .dflt ⟨grow l0.length, 1, 1⟩ = .error e := k1
      rw [he'] at k1'; cases k1'
    · have k1' : selectSizes .dflt ⟨grow l0.length, 1, 1⟩ = .error e := k1
      rw [selectDflt1] at k1'
      split at k1'
      · cases k1'
        exact ⟨w', _, e4, (VecIs.of_lists hL OneD.dflt hR' e3 hl0 dv).transfer hsame⟩
      · cases k1'

/-! ### C30: reserve -/

/-- C30: `reserve(m)` keeps size and elements, provided the elements fit into the extent for `m`; after that `capacity()` is that
    extent. If there is no such extent it throws, and nothing changes. Missing: smaller `m` (`C30_false`). -/
theorem C30_reserve_partial (hL : C.L.WF) (h1 : OneD C.tr) (hr : Roomy C.tr) {w : VecWorld V} (hV : VecValid C dv w) {s : Nat}
    {l : List (Cell V)} (hs : VecIs C w s l) {m : Nat} (hm : ∀ e, selectSizes C.tr ⟨m, 1, 1⟩ = .ok e → l.length ≤ e.x) :
    ∃ w' out, Steps C w (.reserve s m) w' out ∧ VecIs C w' s l ∧
      match selectSizes C.tr ⟨m, 1, 1⟩ with
      | .error e => out = .threw e
      | .ok e => out = .unit ∧ m ≤ e.x ∧ w'.step C (.capacity s) = .ok (w', .nat e.x) := by
  obtain ⟨τ, σ, hR, h⟩ := hV.refines hL h1 hr
  obtain ⟨l0, hl0, hsame⟩ := hs.list hL h1 hR h dv
  have hlen := hsame.1
  obtain ⟨τ', out, σ', e1, e2, e3⟩ := list_step h1 hr dv hR h (.reserve s m) ⟨l0, hl0, fun e he => by rw [hlen]; exact hm e he⟩
  obtain ⟨w', e4, hR'⟩ := vec_step_refines hL h1 dv hR _ e1
  simp only [VecList.Post, VecList.Alloc] at e2
  have hσ : σ' = σ := by
    split at e2 <;> exact e2.2
  subst hσ
  refine ⟨w', out, e4, (VecIs.of_lists hL h1 hR' e3 hl0 dv).transfer hsame, ?_⟩
  cases he : selectSizes C.tr ⟨m, 1, 1⟩ with
  | error e => rw [he] at e2; exact e2.1
  | ok e =>
    rw [he] at e2
    refine ⟨e2.1, (selectSizes_fits he).1, ?_⟩
    obtain ⟨a, ha, hA⟩ := h.vec hl0
    have hres := hA.reserve hr dv (m := m) (fun e he => by rw [hlen]; exact hm e he)
    rw [he] at hres
    obtain ⟨a', q1, q2, q3, q4, _⟩ := hres
    simp only [VecSpec.step, onVec_eq ha, q1, Option.map_some, Option.some.injEq, Prod.mk.injEq] at e1
    have ha' : τ' s = some a' := by rw [← e1.1, upd_self]
    obtain ⟨g, hg, hok⟩ := hR'.vec ha'
    simp only [VecWorld.step, VecWorld.withV, hg, hok.dim, q4]

/-- C30, growing `reserve` in particular. -/
theorem C30_grow (hL : C.L.WF) (h1 : OneD C.tr) (hr : Roomy C.tr) {w : VecWorld V} (hV : VecValid C dv w) {s : Nat}
    {l : List (Cell V)} (hs : VecIs C w s l) {m : Nat} (hm : l.length ≤ m) :
    ∃ w' out, Steps C w (.reserve s m) w' out ∧ VecIs C w' s l := by
  obtain ⟨w', out, k1, k2, _⟩ := C30_reserve_partial hL h1 hr hV hs (m := m)
    (fun e he => Nat.le_trans hm (selectSizes_fits he).1)
  exact ⟨w', out, k1, k2⟩

/-! ### C31: size and capacity -/

/-- C31 for programs without `push_back` and `emplace_back`. Missing: those (`C31_false`). -/
theorem C31_partial (hL : C.L.WF) (h1 : OneD C.tr) (ops : List (VecOp V)) (hnp : ∀ s c, VecOp.push s c ∉ ops)
    {σ : VecSpec.State V} {outs : List (ArrOut V)} (hspec : VecSpec.run C dv VecSpec.start ops = some (σ, outs)) {w : VecWorld V}
    (hrun : VecWorld.init.run C ops = .ok (w, outs)) {s n d : Nat} (hn : w.step C (.size s) = .ok (w, .nat n))
    (hd : w.step C (.capacity s) = .ok (w, .nat d)) : n ≤ d := by
  have inv : ∀ (ops : List (VecOp V)) (σ0 σ : VecSpec.State V) (outs : List (ArrOut V)), (∀ s c, VecOp.push s c ∉ ops) →
      VecSpec.run C dv σ0 ops = some (σ, outs) → (∀ s a, σ0 s = some a → a.n ≤ a.dim) → ∀ s a, σ s = some a → a.n ≤ a.dim := by
    intro ops
    induction ops with
    | nil => intro σ0 σ outs _ h h0; simp only [VecSpec.run] at h; cases h; exact h0
    | cons op ops ih =>
      intro σ0 σ outs hnp h h0
      simp only [VecSpec.run] at h
      cases hst : VecSpec.step C dv σ0 op with
      | none => rw [hst] at h; cases h
      | some p =>
        obtain ⟨σ1, out⟩ := p
        rw [hst] at h
        simp only at h
        cases hr : VecSpec.run C dv σ1 ops with
        | none => rw [hr] at h; cases h
        | some q =>
          obtain ⟨σ2, outs2⟩ := q
          rw [hr] at h
          simp only [Option.some.injEq, Prod.mk.injEq] at h
          rw [← h.1]
          refine ih σ1 σ2 outs2 (fun s c hc => hnp s c (List.mem_cons_of_mem _ hc)) hr ?_
          have updle : ∀ (s : Nat) (x : Option (AVec V)), (∀ a, x = some a → a.n ≤ a.dim) →
              ∀ t a, World.upd σ0 s x t = some a → a.n ≤ a.dim := by
            intro s x hx t a ht
            by_cases hts : t = s
            · subst hts; rw [upd_self] at ht; exact hx a ht
            · rw [upd_ne _ _ hts] at ht; exact h0 t a ht
          have onle : ∀ (s : Nat) (f : AVec V → Option (AVec V × ArrOut V)), VecSpec.onVec σ0 s f = some (σ1, out) →
              (∀ a a' o, f a = some (a', o) → a.n ≤ a.dim → a'.n ≤ a'.dim) → ∀ t a, σ1 t = some a → a.n ≤ a.dim := by
            intro s f hf hle
            unfold VecSpec.onVec at hf
            cases hs : σ0 s with
            | none => rw [hs] at hf; cases hf
            | some a =>
              rw [hs] at hf
              simp only [Option.map_eq_some_iff, Prod.mk.injEq] at hf
              obtain ⟨⟨a', o⟩, hfa, hu, _⟩ := hf
              rw [← hu]
              exact updle s _ (fun b hb => by cases hb; exact hle a a' o hfa (h0 s a hs))
          have reserve_le : ∀ (a a' : AVec V) (m : Nat) (o : ArrOut V), VecSpec.reserve C dv a m = some (a', o) → a.n ≤ a.dim →
              a'.n ≤ a'.dim ∧ (o = .unit → m ≤ a'.dim) := by
            intro a a' m o ha hle
            unfold VecSpec.reserve at ha
            cases hsel : selectSizes C.tr ⟨m, 1, 1⟩ with
            | error e => rw [hsel] at ha; cases ha; exact ⟨hle, fun h => (nomatch h)⟩
            | ok e =>
              rw [hsel] at ha
              simp only at ha
              split at ha
              · rename_i hc; cases ha; exact ⟨hc.2.1, fun _ => (selectSizes_fits hsel).1⟩
              · cases ha
          have create_le : ∀ (s n : Nat) (c : Cell V), VecSpec.create C σ0 s n c = some (σ1, out) →
              ∀ t a, σ1 t = some a → a.n ≤ a.dim := by
            intro s n c hc
            unfold VecSpec.create at hc
            split at hc
            · cases hc
            · split at hc
              · cases hc; exact h0
              · cases hc; exact updle s _ (fun b hb => by cases hb; exact Nat.le_refl _)
          cases op with
          | new s n => exact create_le s n _ hst
          | newFill s n c => exact create_le s n c hst
          | copy s t =>
            simp only [VecSpec.step] at hst
            split at hst
            · rename_i o _ ho
              cases hst; exact updle s _ (fun b hb => by cases hb; exact h0 t o ho)
            · cases hst
          | assign s t =>
            simp only [VecSpec.step] at hst
            split at hst
            · rename_i a o ha ho
              cases hst
              refine updle s _ (fun b hb => ?_)
              split at hb
              · rename_i hdim; cases hb; show o.n ≤ a.dim; rw [hdim]; exact h0 t o ho
              · cases hb; exact h0 t o ho
            · cases hst
          | destroy s =>
            simp only [VecSpec.step] at hst
            split at hst
            · cases hst; exact updle s _ (fun b hb => by cases hb)
            · cases hst
          | set s i c =>
            refine onle s _ hst (fun a a' o hf hle => ?_)
            split at hf
            · cases hf; exact hle
            · cases hf
          | get s i x =>
            refine onle s _ hst (fun a a' o hf hle => ?_)
            simp only [Option.map_eq_some_iff, Prod.mk.injEq] at hf
            obtain ⟨c, _, rfl, _⟩ := hf; exact hle
          | push s c => exact absurd (List.mem_cons_self) (hnp s c)
          | pop s td =>
            refine onle s _ hst (fun a a' o hf hle => ?_)
            split at hf
            · cases hf; show a.n - 1 ≤ a.dim; omega
            · cases hf
          | clear s => exact onle s _ hst (fun a a' o hf hle => by cases hf; exact Nat.zero_le _)
          | resize s m =>
            refine onle s _ hst (fun a a' o hf hle => ?_)
            simp only [VecSpec.resize] at hf
            split at hf
            · cases hres : VecSpec.reserve C dv a m with
              | none => rw [hres] at hf; cases hf
              | some q =>
                obtain ⟨b, ob⟩ := q
                have hb := reserve_le a b m ob hres hle
                rw [hres] at hf
                cases ob <;> simp only [Option.some.injEq, Prod.mk.injEq] at hf <;> obtain ⟨rfl, _⟩ := hf
                · exact hb.2 rfl
                all_goals exact hb.1
            · rename_i hm; cases hf; show m ≤ a.dim; omega
          | reserve s m => exact onle s _ hst (fun a a' o hf hle => (reserve_le a a' m o hf hle).1)
          | size s => exact onle s _ hst (fun a a' o hf hle => by cases hf; exact hle)
          | capacity s => exact onle s _ hst (fun a a' o hf hle => by cases hf; exact hle)
          | empty s => exact onle s _ hst (fun a a' o hf hle => by cases hf; exact hle)
          | poke s x X r k v =>
            refine onle s _ hst (fun a a' o hf hle => ?_)
            split at hf
            · split at hf
              · cases hf; exact hle
              · cases hf
            · cases hf
          | peek s x X r k =>
            refine onle s _ hst (fun a a' o hf hle => ?_)
            split at hf
            · split at hf
              · cases hf; exact hle
              · cases hf
            · cases hf
  obtain ⟨w', k1, hR⟩ := vec_run_refines hL h1 dv ops VR.init hspec
  rw [hrun] at k1
  injection k1 with k1; injection k1 with k1 _
  subst k1
  simp only [VecWorld.step, VecWorld.withV] at hn hd
  cases hv : w.v s with
  | none => rw [hv] at hn; cases hn
  | some v =>
    rw [hv] at hn hd
    simp only [Except.ok.injEq, Prod.mk.injEq, true_and, ArrOut.nat.injEq] at hn hd
    obtain ⟨a, ha, q1, q2⟩ := hR.present hv
    have := inv ops _ σ outs hnp hspec (fun s a h => by cases h) s a ha
    rw [q2.dim] at hd
    simp only at hd
    omega

/-- C31, exact condition for `push_back`: afterwards the size fits the capacity if and only if there had been room for another
    element, or the capacity has changed (the vector has been reallocated). -/
theorem C31_push_iff (hL : C.L.WF) (h1 : OneD C.tr) (hr : Roomy C.tr) {w : VecWorld V} (hV : VecValid C dv w) {s : Nat}
    {l : List (Cell V)} (hs : VecIs C w s l) {d : Nat} (hd : w.step C (.capacity s) = .ok (w, .nat d)) (c : Cell V) {w' : VecWorld V}
    (hp : Steps C w (.push s c) w' .unit) :
    ∃ d', w'.step C (.size s) = .ok (w', .nat (l.length + 1)) ∧ w'.step C (.capacity s) = .ok (w', .nat d') ∧
      (l.length + 1 ≤ d' ↔ l.length + 1 ≤ d ∨ d' ≠ d) := by
  obtain ⟨τ, σ, hR, h⟩ := hV.refines hL h1 hr
  obtain ⟨l0, hl0, hsame⟩ := hs.list hL h1 hR h dv
  obtain ⟨τ', out, σ', e1, e2, e3⟩ := list_step h1 hr dv hR h (.push s c) ⟨l0, hl0⟩
  obtain ⟨w2, e4, hR'⟩ := vec_step_refines hL h1 dv hR _ e1
  unfold Steps at hp
  rw [e4] at hp
  injection hp with hp; injection hp with hp ho
  subst hp ho
  obtain ⟨a, ha, hla⟩ := h.vec hl0
  obtain ⟨g, hg, hok⟩ := hR.vec ha
  have hdd : d = a.dim := by
    simp only [VecWorld.step, VecWorld.withV, hg, hok.dim, Except.ok.injEq, Prod.mk.injEq, true_and, ArrOut.nat.injEq] at hd
    exact hd.symm
  have hde : a.dim ≤ a.ext := hok.fits.1
  have hlen : a.n = l.length := hla.len.trans hsame.1
  simp only [VecSpec.step, VecSpec.onVec, ha, Option.map_eq_some_iff, Prod.mk.injEq] at e1
  obtain ⟨⟨a', o'⟩, f1, f2, f3⟩ := e1
  dsimp only at f2 f3
  subst f3
  have hτ' : τ' s = some a' := by rw [← f2, upd_self]
  obtain ⟨g', hg', hok'⟩ := hR'.vec hτ'
  have key : a'.n = a.n + 1 ∧ (a'.n ≤ a'.dim ↔ a.n + 1 ≤ a.dim ∨ a'.dim ≠ a.dim) := by
    unfold VecSpec.push at f1
    rw [if_pos hla.known] at f1
    by_cases hfull : a.n = a.ext
    · rw [if_pos hfull] at f1
      unfold VecSpec.reserve at f1
      cases hsel : selectSizes C.tr ⟨grow a.n, 1, 1⟩ with
      | error e => rw [hsel] at f1; simp only [Option.some.injEq, Prod.mk.injEq] at f1; exact absurd f1.2 (by simp)
      | ok e =>
        rw [hsel] at f1
        simp only at f1
        split at f1
        · rename_i hb
          split at hb
          · cases hb
            split at f1
            · rename_i hw
              cases f1
              have hlt := hw.1
              dsimp only at hlt ⊢
              omega
            · cases f1
          · cases hb
        · rename_i hb
          split at f1
          · rename_i hc
            exact absurd (if_pos hc) (hb _)
          · cases f1
    · rw [if_neg hfull] at f1
      simp only at f1
      split at f1
      · cases f1
        dsimp only
        omega
      · cases f1
  refine ⟨a'.dim, by simp only [VecWorld.step, VecWorld.withV, hg', key.1, hlen], by simp only [VecWorld.step, VecWorld.withV, hg', hok'.dim], ?_⟩
  rw [hdd, ← hlen, ← key.1]
  rw [key.2, key.1]

/-! ### C32: copies -/

theorem VecIs.avec {w : VecWorld V} {τ : VecSpec.State V} (hR : VR C w τ) {s : Nat} {l : List (Cell V)} (hs : VecIs C w s l) :
    ∃ a, τ s = some a ∧ a.n = l.length := by
  have := hs.size
  simp only [VecWorld.step, VecWorld.withV] at this
  cases hv : w.v s with
  | none => rw [hv] at this; cases this
  | some v =>
    rw [hv] at this
    simp only [Except.ok.injEq, Prod.mk.injEq, true_and, ArrOut.nat.injEq] at this
    obtain ⟨a, ha, q1, q2⟩ := hR.present hv
    exact ⟨a, ha, by omega⟩

/-- A loop fails if one of its iterations does, whatever the state. -/
theorem loopM_fails {σ : Type} {n q : Nat} (hq : q < n) {f : Nat → σ → Except UB σ} {I : σ → Prop}
    (hI : ∀ j s s', I s → f j s = .ok s' → I s') (hf : ∀ s, I s → ∃ u, f q s = .error u) {s : σ} (hs : I s) :
    ∃ u, loopM n f s = .error u := by
  have keep : ∀ k s', loopM k f s = .ok s' → I s' := by
    intro k
    induction k with
    | zero => intro s' h; cases h; exact hs
    | succ k ih =>
      intro s' h
      rw [loopM_succ] at h
      cases h1 : loopM k f s with
      | error u => rw [h1] at h; cases h
      | ok s1 => rw [h1] at h; exact hI k s1 s' (ih s1 h1) h
  induction n with
  | zero => omega
  | succ n ih =>
    rw [loopM_succ]
    by_cases hqn : q < n
    · obtain ⟨u, hu⟩ := ih hqn
      rw [hu]; exact ⟨u, rfl⟩
    · obtain rfl : q = n := by omega
      cases h1 : loopM q f s with
      | error u => exact ⟨u, rfl⟩
      | ok s1 => exact hf s1 (keep q s1 h1)

/-- Loading more elements than there is room for leaves the buffer at the latest with the last member. -/
theorem loadRaw_behind {L : Layout V} (hL : L.WF) (hne : L ≠ []) {N count off stride : Nat} (hc : N < count) {b src : Block V}
    (hb : b.size = aggSize L * N) : ∃ u, (accAt ⟨N, 1, 1⟩ (0 : Nat)).loadRaw L (fun _ => src) count off stride b = .error u := by
  obtain ⟨L1, m, rfl⟩ : ∃ L1 m, L = L1 ++ [m] :=
    ⟨L.dropLast, L.getLast hne, (List.dropLast_concat_getLast hne).symm⟩
  have hm : (L1 ++ [m])[L1.length]? = some m := by simp
  have hsz := hL.size_pos hm
  have hel := hL.elems_pos hm
  have hagg : aggSize (L1 ++ [m]) = offset (L1 ++ [m]) L1.length + m.ty.size * m.elems := by
    unfold aggSize
    rw [List.length_append, List.length_cons, List.length_nil, ← offset_succ hm]
  have hfail : ∀ (b1 : Block V) (v : V), b1.size = b.size →
      b1.assign ((slot (⟨N, 1, 1⟩ : Ext).prod (offset (L1 ++ [m]) L1.length) m.ty.size (m.elems - 1) N : Nat) : Int) m.ty v = .error .oob := by
    intro b1 v hb1
    unfold Block.assign
    rw [if_neg]
    have e1 : m.ty.size * m.elems = m.ty.size * (m.elems - 1) + m.ty.size := by
      conv_lhs => rw [show m.elems = (m.elems - 1) + 1 by omega]
      rw [Nat.mul_add, Nat.mul_one]
    have e2 : slot (⟨N, 1, 1⟩ : Ext).prod (offset (L1 ++ [m]) L1.length) m.ty.size (m.elems - 1) N = aggSize (L1 ++ [m]) * N := by
      unfold slot
      rw [prod1, hagg, e1]; ring
    rw [e2]
    simp only [Block.inB, Bool.and_eq_true, decide_eq_true_eq, not_and]
    intro _
    rw [hb1, hb]
    omega
  have step : ∀ (x : Block V → Int) (y : Int) (ty : Ty), KeepsSize (fun b => (src.read (x b) ty).bind fun v => b.assign y ty v) := by
    intro x y ty b b' h
    cases hr : src.read (x b) ty with
    | error u => simp only [hr] at h; cases h
    | ok v => simp only [hr] at h; exact KeepsSize.assign y ty v b b' h
  have stepFails : ∀ (x y : Int) (b1 : Block V), b1.size = b.size →
      y = ((slot (⟨N, 1, 1⟩ : Ext).prod (offset (L1 ++ [m]) L1.length) m.ty.size (m.elems - 1) N : Nat) : Int) →
      ∃ u, ((src.read x m.ty).bind fun v => b1.assign y m.ty v) = .error u := by
    intro x y b1 hb1 hy
    cases src.read x m.ty with
    | error u => exact ⟨u, rfl⟩
    | ok v => exact ⟨.oob, by rw [hy]; exact hfail b1 v hb1⟩
  unfold Acc.loadRaw
  rw [forEach_append]
  generalize hg : forEach _ L1 0 b = g
  cases g with
  | error u => exact ⟨u, rfl⟩
  | ok b1 =>
    have hb1 : b1.size = b.size := by
      refine KeepsSize.forEach (fun r m => ?_) L1 0 b b1 hg
      cases m.arity with
      | none => exact KeepsSize.loop (fun i => step (fun _ => _) _ _)
      | some n => exact KeepsSize.loop (fun k => KeepsSize.loop (fun i => step (fun _ => _) _ _))
    simp only [forEach, Nat.zero_add]
    show ∃ u, Except.bind _ _ = .error u
    have hA := accAt_At ⟨N, 1, 1⟩ 0
    have key : ∃ u, (match m.arity with
        | none => loopM count (fun i (b : Block V) =>
            (src.read ((offset (L1 ++ [m]) L1.length : Int) * stride + ((off : Int) + i) * m.ty.size) m.ty).bind fun v =>
              b.assign ((accAt ⟨N, 1, 1⟩ (0 : Nat)).member (L1 ++ [m]) L1.length m 0 + (i : Int) * m.ty.size) m.ty v) b1
        | some n => loopM n (fun k (b : Block V) => loopM count (fun i (b : Block V) =>
            (src.read ((offset (L1 ++ [m]) L1.length : Int) * stride + ((stride : Int) * k + off + i) * m.ty.size) m.ty).bind fun v =>
              b.assign ((accAt ⟨N, 1, 1⟩ (0 : Nat)).arrayRef (L1 ++ [m]) L1.length m 0 +
                (((accAt ⟨N, 1, 1⟩ (0 : Nat)).ext.prod : Int) * k + i) * m.ty.size) m.ty v) b) b1) = .error u := by
      cases har : m.arity with
      | none =>
        have he := elems_none har
        refine loopM_fails (q := N) hc (I := fun b' => b'.size = b.size) (fun j s s' hs h => ?_) (fun s hs => ?_) hb1
        · exact (step (fun _ => _) _ _ s s' h).trans hs
        · refine stepFails _ _ s hs ?_
          have := Acc.member_row_slot (L1 ++ [m]) hA L1.length m N hel
          rw [this, show m.elems - 1 = 0 by omega]
          simp [accAt]
      | some n =>
        have he := elems_some har
        refine loopM_fails (q := n - 1) (by omega) (I := fun b' => b'.size = b.size) (fun j s s' hs h => ?_) (fun s hs => ?_) hb1
        · exact (KeepsSize.loop (fun i => step (fun _ => _) _ _) s s' h).trans hs
        · refine loopM_fails (q := N) hc (I := fun b' => b'.size = b.size) (fun j s s' hs h => ?_) (fun s hs => ?_) hs
          · exact (step (fun _ => _) _ _ s s' h).trans hs
          · refine stepFails _ _ s hs ?_
            have := Acc.arrayRef_plane_row_slot (L1 ++ [m]) hA L1.length m (n - 1) N hel
            rw [this, show m.elems - 1 = n - 1 by omega]
            simp [accAt]
    obtain ⟨u, hu⟩ := key
    refine ⟨u, ?_⟩
    have bindErr : ∀ (x : Except UB (Block V)) (f : Block V → Except UB (Block V)), x = .error u → x.bind f = .error u := by
      rintro _ f rfl; rfl
    exact bindErr (match m.arity with | none => _ | some n => _) Except.ok hu

/-- C30 is false for every vector whose elements do not fit into the extent for the request: `reserve` writes beyond its new buffer. -/
theorem C30_false_all (hL : C.L.WF) (hne : C.L ≠ []) (h1 : OneD C.tr) (hr : Roomy C.tr) {w : VecWorld V} (hV : VecValid C dv w) {s : Nat}
    {l : List (Cell V)} (hs : VecIs C w s l) {m : Nat} {e : Ext} (he : selectSizes C.tr ⟨m, 1, 1⟩ = .ok e) (hlt : e.x < l.length) :
    ∃ u, w.step C (.reserve s m) = .error u := by
  obtain ⟨τ, σ, hR, h⟩ := hV.refines hL h1 hr
  obtain ⟨a, ha, hn⟩ := hs.avec hR
  obtain ⟨g, hg, hok⟩ := hR.vec ha
  obtain ⟨ng, h0, ng', h2, new, k1, k2, k3, k4, k5, k6, k7⟩ := reserve_grid hL h1 hR.fresh he dv
  obtain ⟨id, b, q1, q2, _, _⟩ := hok.buf
  have hid : id < w.h.next := by
    by_contra hc
    rw [hR.fresh id (by omega)] at q2; cases q2
  have q2' : h2.blk id = some b := by rw [k5.kept id (fun hh => (nomatch hh)) hid]; exact q2
  obtain ⟨k71, e', id', b', r1, r2, r3, r4, _⟩ := k7
  have hee : e' = ⟨e.x, 1, 1⟩ := by
    have := h1.idem he
    rw [k6] at this
    have r1' : selectSizes C.tr ⟨e.x, 1, 1⟩ = .ok e' := r1
    simp only at this
    rw [this] at r1'
    cases r1'; rfl
  subst hee
  rw [prod1] at r4
  simp only [VecWorld.step, VecWorld.withV, hg, VecWorld.ofVS, SVec.reserve, k1, k2, k3, q1, Option.bind_some, q2']
  cases g.ex with
  | none => exact ⟨_, rfl⟩
  | some oex =>
    obtain ⟨u, hu⟩ := loadRaw_behind (src := b) (off := 0) (stride := oex) hL hne (show e.x < a.n by omega) r4
    have hload : ng'.load C [⟨0, 0, 0, a.n⟩] b oex h2 = .ub u := by
      have r1' : selectSizes C.tr ng'.dim = .ok ⟨e.x, 1, 1⟩ := by rw [k71]; exact r1
      simp only [Grid.load, Grid.callbackMut, r1', onBuffer, r2, r3, loadFunctor]
      have : genIndex ⟨e.x, 1, 1⟩ ((0 : Nat) : Int) ((0 : Nat) : Int) ((0 : Nat) : Int) = ((0 : Nat) : Int) := by simp [genIndex]
      rw [this, hu]
      rfl
    simp only [hload]
    exact ⟨u, rfl⟩

/-- C30, exactly: `reserve` works if and only if the elements fit into the extent for the request, or there is none. -/
theorem C30_iff (hL : C.L.WF) (hne : C.L ≠ []) (h1 : OneD C.tr) (hr : Roomy C.tr) {w : VecWorld V} (hV : VecValid C dv w) {s : Nat}
    {l : List (Cell V)} (hs : VecIs C w s l) (m : Nat) :
    (∃ w' out, Steps C w (.reserve s m) w' out ∧ VecIs C w' s l) ↔ ∀ e, selectSizes C.tr ⟨m, 1, 1⟩ = .ok e → l.length ≤ e.x := by
  constructor
  · rintro ⟨w', out, h, _⟩ e he
    by_contra hc
    obtain ⟨u, hu⟩ := C30_false_all hL hne h1 hr hV hs he (by omega)
    have h' : w.step C (.reserve s m) = .ok (w', out) := h
    rw [hu] at h'; cases h'
  · intro h
    obtain ⟨w', out, k1, k2, _⟩ := C30_reserve_partial hL h1 hr hV hs h
    exact ⟨w', out, k1, k2⟩

/-- Copies which are made by the specification, in terms of observations. -/
theorem copied (hL : C.L.WF) (h1 : OneD C.tr) {w w' : VecWorld V} {τ τ' : VecSpec.State V} (hR : VR C w τ) (hR' : VR C w' τ')
    {s t : Nat} {l : List (Cell V)} (ht : VecIs C w t l) {a b : AVec V} (ha : τ t = some a) (hb : τ' s = some b)
    (hn : b.n = a.n) (hc : ∀ i, i < l.length → b.cells i = a.cells i ∧ (a.cells i).isSome = true) (dv : V) : VecIs C w' s l := by
  obtain ⟨a', ha', hlen⟩ := ht.avec hR
  rw [ha] at ha'; cases ha'
  obtain ⟨g, hg, hok⟩ := hR'.vec hb
  refine ⟨by simp only [VecWorld.step, VecWorld.withV, hg, hn, hlen], fun i c hi x => ?_⟩
  have hil := (List.getElem?_eq_some_iff.1 hi).1
  obtain ⟨k1, k2⟩ := hc i hil
  obtain ⟨c', hc'⟩ := Option.isSome_iff_exists.1 k2
  have e1 := vec_get_ok hL h1 dv hR ha hc' x
  rw [ht.get i c hi x] at e1
  have e2 := vec_get_ok hL h1 dv hR' hb (k1.trans hc') x
  rw [e2]
  simp only [Except.ok.injEq, Prod.mk.injEq, true_and] at e1
  rw [← e1]

/-- C32, copy construction: if the size of the source does not exceed its capacity, the copy has the same size and elements, and
    so has the source afterwards. Missing: sources with `size() > capacity()` (`C32_false`). -/
theorem C32_copy_partial (hL : C.L.WF) (h1 : OneD C.tr) {w : VecWorld V} (hV : VecProg C dv w) {s t : Nat} (hs : w.v s = none)
    {l : List (Cell V)} (ht : VecIs C w t l) {d : Nat} (hd : w.step C (.capacity t) = .ok (w, .nat d)) (hle : l.length ≤ d) :
    ∃ w', Steps C w (.copy s t) w' .unit ∧ VecIs C w' s l ∧ VecIs C w' t l := by
  obtain ⟨τ, hR⟩ := hV.refines hL h1
  obtain ⟨a, ha, hlen⟩ := ht.avec hR
  have hτ : τ s = none := by
    cases hx : τ s with
    | none => rfl
    | some b => obtain ⟨g, hg, _⟩ := hR.vec hx; rw [hs] at hg; cases hg
  obtain ⟨g, hg, hok⟩ := hR.vec ha
  have hdd : d = a.dim := by
    simp only [VecWorld.step, VecWorld.withV, hg, hok.dim, Except.ok.injEq, Prod.mk.injEq, true_and, ArrOut.nat.injEq] at hd
    exact hd.symm
  have hst : VecSpec.step C dv τ (.copy s t) = some (World.upd τ s (some { a with
      known := false, cells := fun i => if i < a.dim then a.cells i else none }), .unit) := by
    simp only [VecSpec.step, hτ, ha]
  obtain ⟨w', e4, hR'⟩ := vec_step_refines hL h1 dv hR _ hst
  have hne : t ≠ s := by rintro rfl; rw [hτ] at ha; cases ha
  refine ⟨w', e4, copied hL h1 hR hR' ht ha (upd_self _ _ _) rfl (fun i hi => ⟨?_, hok.live i (by omega)⟩) dv,
    copied hL h1 hR hR' ht ha (by rw [upd_ne _ _ hne]; exact ha) rfl (fun i hi => ⟨rfl, hok.live i (by omega)⟩) dv⟩
  show (if i < a.dim then _ else _) = _
  rw [if_pos (by omega)]

/-- C32, copy construction, is false for all sources whose size exceeds their capacity: the copy reports the same size, but reading
    any of its elements behind the capacity is undefined behaviour. -/
theorem C32_copy_false (hL : C.L.WF) (h1 : OneD C.tr) {w : VecWorld V} (hV : VecProg C dv w) (hne : C.L ≠ []) {s t : Nat}
    (hs : w.v s = none) {n d : Nat} (hn : w.step C (.size t) = .ok (w, .nat n)) (hd : w.step C (.capacity t) = .ok (w, .nat d)) :
    ∃ w', Steps C w (.copy s t) w' .unit ∧ w'.step C (.size s) = .ok (w', .nat n) ∧
      ∀ i x, d ≤ i → i < n → ∃ u, w'.step C (.get s i x) = .error u := by
  obtain ⟨ops, τ, outs, hsp, hrun⟩ := hV
  obtain ⟨w1, k1, hR, hfit⟩ := vec_fit_run hL h1 dv ops VR.init (fun s a h => by cases h) hsp
  rw [hrun] at k1
  injection k1 with k1; injection k1 with k1 _
  subst k1
  have hτ : τ s = none := by
    cases hx : τ s with
    | none => rfl
    | some b => obtain ⟨g, hg, _⟩ := hR.vec hx; rw [hs] at hg; cases hg
  simp only [VecWorld.step, VecWorld.withV] at hn hd
  cases hv : w.v t with
  | none => rw [hv] at hn; cases hn
  | some v =>
    rw [hv] at hn hd
    simp only [Except.ok.injEq, Prod.mk.injEq, true_and, ArrOut.nat.injEq] at hn hd
    obtain ⟨a, ha, q1, q2⟩ := hR.present hv
    have hdd : d = a.dim := by rw [← hd, q2.dim]
    have hst : VecSpec.step C dv τ (.copy s t) = some (World.upd τ s (some { a with
        known := false, cells := fun i => if i < a.dim then a.cells i else none }), .unit) := by
      simp only [VecSpec.step, hτ, ha]
    obtain ⟨w', e4, hR'⟩ := vec_step_refines hL h1 dv hR _ hst
    obtain ⟨g, id, b, p1, p2, p3, p4, p5⟩ := copy_pad_undef hL hR hτ ha e4
    have han : a.n = n := by rw [← hn, q1]
    refine ⟨w', e4, by simp only [VecWorld.step, VecWorld.withV, p1, han], fun i x hdi hin => ?_⟩
    have hia : i < a.ext := by have := hfit t a ha; omega
    obtain ⟨m, L', hLm⟩ := List.exists_cons_of_ne_nil hne
    have hwf := hL m (by rw [hLm]; simp)
    obtain ⟨u, hu⟩ := get_undef (e := a.ext) (i := i) (b := b) hL hLm
      (p5 0 m 0 i 0 (by rw [hLm]; rfl) hwf.2 (by omega) hia hwf.1) x
    refine ⟨u, ?_⟩
    simp only [VecWorld.step, VecWorld.withV, p1, SVec.get, Grid.get, Grid.callbackRead, p2, q2.sel, p3, p4, hu]
    rfl

/-- C32, copy construction: the exact condition for the copy to have the same size and elements. -/
theorem C32_copy_iff (hL : C.L.WF) (h1 : OneD C.tr) {w : VecWorld V} (hV : VecProg C dv w) (hne : C.L ≠ []) {s t : Nat}
    (hs : w.v s = none) {l : List (Cell V)} (ht : VecIs C w t l) {d : Nat} (hd : w.step C (.capacity t) = .ok (w, .nat d)) :
    (∃ w' out, Steps C w (.copy s t) w' out ∧ VecIs C w' s l) ↔ l.length ≤ d := by
  constructor
  · rintro ⟨w', out, e1, e2⟩
    by_contra hlt
    obtain ⟨w2, k1, _, k3⟩ := C32_copy_false hL h1 hV hne hs ht.size hd
    unfold Steps at e1 k1
    rw [k1] at e1
    injection e1 with e1; injection e1 with e1 _
    subst e1
    have hget := e2.get d (l[d]'(by omega)) (List.getElem?_eq_getElem (by omega)) (l[d]'(by omega))
    obtain ⟨u, hu⟩ := k3 d (l[d]'(by omega)) (Nat.le_refl _) (by omega)
    rw [hget] at hu; cases hu
  · intro h
    obtain ⟨w', k1, k2, _⟩ := C32_copy_partial hL h1 hV hs ht hd h
    exact ⟨w', _, k1, k2⟩

/-- C32, assignment: the same. -/
theorem C32_assign_partial (hL : C.L.WF) (h1 : OneD C.tr) {w : VecWorld V} (hV : VecProg C dv w) {s t : Nat} {ls l : List (Cell V)}
    (hs : VecIs C w s ls) (ht : VecIs C w t l) {d : Nat} (hd : w.step C (.capacity t) = .ok (w, .nat d)) (hle : l.length ≤ d) :
    ∃ w', Steps C w (.assign s t) w' .unit ∧ VecIs C w' s l ∧ VecIs C w' t l := by
  obtain ⟨τ, hR⟩ := hV.refines hL h1
  obtain ⟨a, ha, hlen⟩ := ht.avec hR
  obtain ⟨b, hb, _⟩ := hs.avec hR
  obtain ⟨g, hg, hok⟩ := hR.vec ha
  have hdd : d = a.dim := by
    simp only [VecWorld.step, VecWorld.withV, hg, hok.dim, Except.ok.injEq, Prod.mk.injEq, true_and, ArrOut.nat.injEq] at hd
    exact hd.symm
  have hst : VecSpec.step C dv τ (.assign s t) = some (World.upd τ s (some (
        if b.dim = a.dim then { b with n := a.n, cells := fun i => if i < a.dim then a.cells i else b.cells i }
        else { a with known := true, cells := fun i => if i < a.dim then a.cells i else none })), .unit) := by
    simp only [VecSpec.step, hb, ha]
  obtain ⟨w', e4, hR'⟩ := vec_step_refines hL h1 dv hR _ hst
  have hnew : VecIs C w' s l := by
    by_cases hdim : b.dim = a.dim
    · rw [if_pos hdim] at hR'
      refine copied hL h1 hR hR' ht ha (upd_self _ _ _) rfl (fun i hi => ⟨?_, hok.live i (by omega)⟩) dv
      show (if i < a.dim then _ else _) = _
      rw [if_pos (by omega)]
    · rw [if_neg hdim] at hR'
      refine copied hL h1 hR hR' ht ha (upd_self _ _ _) rfl (fun i hi => ⟨?_, hok.live i (by omega)⟩) dv
      show (if i < a.dim then _ else _) = _
      rw [if_pos (by omega)]
  refine ⟨w', e4, hnew, ?_⟩
  by_cases hts : t = s
  · subst hts; exact hnew
  · exact copied hL h1 hR hR' ht ha (by rw [upd_ne _ _ hts]; exact ha) rfl (fun i hi => ⟨rfl, hok.live i (by omega)⟩) dv

/-! ### C33: lifetime -/

/-- C33: after any program which respects the contracts of `VecSpec` (in particular: elements are appended only where the buffer has
    objects, or to structs without non-trivial members) the heap consists of one buffer per vector, and no freed buffer contains
    an object which has not been destroyed. Missing: `push_back` into the padding of the initial buffer (`C33_false`). -/
theorem C33_partial (hL : C.L.WF) (h1 : OneD C.tr) (ops : List (VecOp V)) {σ : VecSpec.State V} {outs : List (ArrOut V)}
    (hspec : VecSpec.run C dv VecSpec.start ops = some (σ, outs)) :
    ∃ w, VecWorld.init.run C ops = .ok (w, outs) ∧ (∀ b ∈ w.h.freed, Clean b) ∧
      (∀ id b, w.h.blk id = some b → ∃ s v, w.v s = some v ∧ v.g.data = some id) ∧
      ((∀ s, w.v s = none) → ∀ id, w.h.blk id = none) := by
  obtain ⟨w, k1, hR⟩ := vec_run_refines hL h1 dv ops VR.init hspec
  refine ⟨w, k1, hR.clean, hR.live, fun hnone id => ?_⟩
  cases hb : w.h.blk id with
  | none => rfl
  | some b => obtain ⟨s, v, hv, _⟩ := hR.live id b hb; rw [hnone s] at hv; cases hv

/-- C33: list programs on structs with non-trivial members. -/
theorem C33_lists_partial (hL : C.L.WF) (h1 : OneD C.tr) (hr : Roomy C.tr) (ops : List (VecOp V))
    (hleg : VecList.Legal C dv VecList.start ops) :
    ∃ w outs, VecWorld.init.run C ops = .ok (w, outs) ∧ (∀ b ∈ w.h.freed, Clean b) ∧
      (∀ id b, w.h.blk id = some b → ∃ s v, w.v s = some v ∧ v.g.data = some id) ∧
      ((∀ s, w.v s = none) → ∀ id, w.h.blk id = none) := by
  obtain ⟨w, outs, τ, σ, k1, k2, hR, _⟩ := list_run hL h1 hr dv ops VR.init VL.init hleg
  refine ⟨w, outs, k1, hR.clean, hR.live, fun hnone id => ?_⟩
  cases hb : w.h.blk id with
  | none => rfl
  | some b => obtain ⟨s, v, hv, _⟩ := hR.live id b hb; rw [hnone s] at hv; cases hv

/-- C33 is false for all structs with a non-trivial member and all vectors: writing to any cell of the padding (behind the capacity,
    within the extent of the buffer) is undefined behaviour, no matter what the program did before. -/
theorem C33_false_set (hL : C.L.WF) (h1 : OneD C.tr) {w : VecWorld V} (hV : VecProg C dv w) (hnt : ∃ m ∈ C.L, m.ty.triv = false)
    {s d i : Nat} {e : Ext} (hd : w.step C (.capacity s) = .ok (w, .nat d)) (he : selectSizes C.tr ⟨d, 1, 1⟩ = .ok e)
    (hdi : d ≤ i) (hie : i < e.x) (c : Cell V) : ∃ u, w.step C (.set s i c) = .error u := by
  obtain ⟨τ, hR⟩ := hV.refines hL h1
  simp only [VecWorld.step, VecWorld.withV] at hd
  cases hv : w.v s with
  | none => rw [hv] at hd; cases hd
  | some v =>
    rw [hv] at hd
    simp only [Except.ok.injEq, Prod.mk.injEq, true_and, ArrOut.nat.injEq] at hd
    obtain ⟨a, ha, q1, q2⟩ := hR.present hv
    have hdd : d = a.dim := by rw [← hd, q2.dim]
    have hsel := q2.sel
    rw [← hdd, he] at hsel
    injection hsel with hsel
    have hex : e.x = a.ext := by rw [hsel]
    obtain ⟨id, b, p1, p2, _, p4⟩ := q2.buf
    obtain ⟨m, hm, hmt⟩ := hnt
    obtain ⟨r, hr⟩ := List.getElem?_of_mem hm
    have hntL : ArrSpec.trivial C.L = false := by
      rw [← Bool.not_eq_true, ArrSpec.trivial, List.all_eq_true]
      intro h; rw [h m hm] at hmt; cases hmt
    obtain ⟨u, hu⟩ := set_fails (e := a.ext) (i := i) hL hr hmt (by omega)
      (p4.hnone r m 0 i hr (hL m hm).2 (by omega) (vcont_none (q2.nt hntL i (by omega)) r 0)) c
    refine ⟨u, ?_⟩
    simp only [VecWorld.step, VecWorld.withV, hv, SVec.set, Grid.set, Grid.callbackMut, q2.dim, q2.sel, onBuffer, p1, p2, hu]
    rfl

/-- Hence so is `push_back` whenever the size is not below the capacity, but below the extent. (Programs without copy
    construction; see `C32_false_extent` for those.) -/
theorem C33_false_push (hL : C.L.WF) (h1 : OneD C.tr) (ops : List (VecOp V)) (hnc : ∀ s t, VecOp.copy s t ∉ ops)
    {σ : VecSpec.State V} {outs : List (ArrOut V)} (hspec : VecSpec.run C dv VecSpec.start ops = some (σ, outs)) {w : VecWorld V}
    (hrun : VecWorld.init.run C ops = .ok (w, outs)) (hnt : ∃ m ∈ C.L, m.ty.triv = false)
    {s n d : Nat} {e : Ext} (hn : w.step C (.size s) = .ok (w, .nat n)) (hd : w.step C (.capacity s) = .ok (w, .nat d))
    (he : selectSizes C.tr ⟨d, 1, 1⟩ = .ok e) (hdn : d ≤ n) (hne : n < e.x) (c : Cell V) :
    ∃ u, w.step C (.push s c) = .error u := by
  obtain ⟨u, hu⟩ := C33_false_set hL h1 ⟨ops, σ, outs, hspec, hrun⟩ hnt hd he hdn hne c
  obtain ⟨w', k1, hR⟩ := vec_run_refines hL h1 dv ops VR.init hspec
  rw [hrun] at k1
  injection k1 with k1; injection k1 with k1 _
  subst k1
  simp only [VecWorld.step, VecWorld.withV] at hn hd hu ⊢
  cases hv : w.v s with
  | none => rw [hv] at hd; cases hd
  | some v =>
    rw [hv] at hn hd hu
    simp only [Except.ok.injEq, Prod.mk.injEq, true_and, ArrOut.nat.injEq] at hn hd
    obtain ⟨a, ha, q1, q2⟩ := hR.present hv
    have hdd : d = a.dim := by rw [← hd, q2.dim]
    have hsel := q2.sel
    rw [← hdd, he] at hsel
    injection hsel with hsel
    have hex : e.x = a.ext := by rw [hsel]
    have hkn := vec_known_run dv ops hnc (fun s a h => by cases h) hspec s a ha
    simp only at hu ⊢
    simp only [SVec.push, q2.ex hkn]
    rw [if_neg (by omega)]
    simp only [Res.bind]
    rw [← hn] at hu
    cases hset : v.set C v.n c w.h with
    | ub u' => exact ⟨u', rfl⟩
    | ok x y => rw [hset] at hu; cases hu
    | throw x y => rw [hset] at hu; cases hu

/-- C29 is false for every struct and all size lists with a size `n` of at most four: `push_back` to a vector of `n` elements which
    fill its buffer is undefined behaviour. (Programs without copy construction.) -/
theorem C29_false_all (hL : C.L.WF) (h1 : OneD C.tr) (ops : List (VecOp V)) (hnc : ∀ s t, VecOp.copy s t ∉ ops)
    {σ : VecSpec.State V} {outs : List (ArrOut V)} (hspec : VecSpec.run C dv VecSpec.start ops = some (σ, outs)) {w : VecWorld V}
    (hrun : VecWorld.init.run C ops = .ok (w, outs)) (hne : C.L ≠ []) {s n : Nat} (hn : w.step C (.size s) = .ok (w, .nat n))
    (hd : w.step C (.capacity s) = .ok (w, .nat n)) (he : selectSizes C.tr ⟨n, 1, 1⟩ = .ok ⟨n, 1, 1⟩) (h4 : n ≤ 4) (c : Cell V) :
    ∃ u, w.step C (.push s c) = .error u := by
  obtain ⟨w', k1, hR⟩ := vec_run_refines hL h1 dv ops VR.init hspec
  rw [hrun] at k1
  injection k1 with k1; injection k1 with k1 _
  subst k1
  have hgrow : grow n = n := by
    have : n = 0 ∨ n = 1 ∨ n = 2 ∨ n = 3 ∨ n = 4 := by omega
    rcases this with rfl | rfl | rfl | rfl | rfl <;> decide
  simp only [VecWorld.step, VecWorld.withV] at hn hd ⊢
  cases hv : w.v s with
  | none => rw [hv] at hd; cases hd
  | some v =>
    rw [hv] at hn hd
    simp only [Except.ok.injEq, Prod.mk.injEq, true_and, ArrOut.nat.injEq] at hn hd
    obtain ⟨a, ha, q1, q2⟩ := hR.present hv
    have hdd : n = a.dim := by rw [← hd, q2.dim]
    have han : a.n = n := by rw [← hn, q1]
    have hsel := q2.sel
    rw [← hdd, he] at hsel
    injection hsel with hsel
    injection hsel with hex
    have hkn := vec_known_run dv ops hnc (fun s a h => by cases h) hspec s a ha
    obtain ⟨g', h', new, r1, r2, _, r4⟩ := q2.reserve hL h1 dv hR.fresh (m := grow n) (by rw [hgrow]; exact he) hkn
      (by rw [han]) (by omega) (fun i hi => q2.live i (by omega))
    obtain ⟨id, b, p1, p2, p3, _⟩ := r4.buf
    obtain ⟨u, hu⟩ := set_behind hL hne p3 c
    refine ⟨u, ?_⟩
    have hvg : v = ⟨v.g, a.n⟩ := by cases v; simp only at q1 ⊢; rw [← q1]
    have hres : v.reserve C (grow v.n) w.h = .ok () (⟨g', a.n⟩, h') := by
      rw [hn]; rw [hvg]; exact r1
    simp only [SVec.push, q2.ex hkn]
    rw [if_pos (by omega), hres]
    simp only [Res.bind, SVec.set, Grid.set, Grid.callbackMut, r4.dim, r4.sel, onBuffer, p1, p2]
    rw [han, hu]
    rfl

/-! ### C34: other size traits -/

theorem OneD.custom {xs ys zs : List Nat} : OneD (.custom xs (1 :: ys) (1 :: zs)) := by
  intro n e he
  simp only [selectSizes, selectCustom, firstFit] at he
  cases hf : firstFit n xs with
  | none => simp [hf] at he
  | some s => simp [hf] at he; cases he; exact ⟨rfl, rfl⟩

theorem Roomy.custom {xs ys zs : List Nat} (h : ∀ s ∈ xs, 5 ≤ s ∧ s < 2 ^ 53) : Roomy (.custom xs ys zs) := by
  intro n e he
  simp only [selectSizes, selectCustom] at he
  cases hf : firstFit n xs with
  | none => simp [hf] at he
  | some s =>
    cases hf2 : firstFit 1 ys with
    | none => simp [hf, hf2] at he
    | some s2 =>
      cases hf3 : firstFit 1 zs with
      | none => simp [hf, hf2, hf3] at he
      | some s3 => simp [hf, hf2, hf3] at he; cases he; exact h s (firstFit_mem hf)

/-- C34 for uniform 1D sizes and custom sizes whose first y and z size is one, if all x sizes are at least five. Missing: 2D and 3D
    sizes (`C34_false`) and smaller sizes (`C29_false`). -/
theorem C34_partial {L : Layout V} {asym : Bool} (hL : L.WF) {xs ys zs : List Nat} (hx : ∀ s ∈ xs, 5 ≤ s ∧ s < 2 ^ 53) {tr : Traits}
    (htr : tr = .uniform1 xs ∨ tr = .custom xs (1 :: ys) (1 :: zs)) (ops : List (VecOp V))
    (hleg : VecList.Legal ⟨L, tr, asym⟩ dv VecList.start ops) :
    ∃ w outs σ, VecWorld.init.run ⟨L, tr, asym⟩ ops = .ok (w, outs) ∧
      VecList.Run ⟨L, tr, asym⟩ dv VecList.start ops outs σ := by
  rcases htr with rfl | rfl
  · exact C28_history_partial (C := ⟨L, .uniform1 xs, asym⟩) hL (OneD.uniform1 xs) (Roomy.uniform1 hx) ops hleg
  · exact C28_history_partial (C := ⟨L, .custom xs (1 :: ys) (1 :: zs), asym⟩) hL OneD.custom (Roomy.custom hx) ops hleg

end

/-! ### Concrete cases -/

/-- struct { int a; float b[2]; } with sizes 8 and 16. -/
def vecC : Cfg Int := ⟨plainL, .uniform1 [8, 16], false⟩

theorem vecC_WF : vecC.L.WF := plainL_WF
theorem vecC_one : OneD vecC.tr := OneD.uniform1 _
theorem vecC_roomy : Roomy vecC.tr := Roomy.uniform1 (by decide)

/-- Two vectors, one is filled beyond its first buffer. -/
def vecOps : List (VecOp Int) :=
  [.newFill 0 7 demoCell, .new 1 2, .push 0 (fun _ _ => 8), .push 0 (fun _ _ => 9), .set 0 1 (fun _ _ => 5), .get 0 8 demoCell]

theorem VecList.Legal.det {V : Type} {C : Cfg V} {dv : V} {σ : VecList.State V} {op : VecOp V} {ops : List (VecOp V)}
    (s : Nat) (x : Option (List (Cell V))) (hp : VecList.Pre C σ op)
    (hd : ∀ σ' out, VecList.Post C dv σ op σ' out → σ' = World.upd σ s x) (h : VecList.Legal C dv (World.upd σ s x) ops) : VecList.Legal C dv σ (op :: ops) :=
  ⟨hp, fun σ' out hpost => by rw [hd σ' out hpost]; exact h⟩

theorem vec_legal : VecList.Legal vecC 0 VecList.start vecOps := by
  have e7 : selectSizes vecC.tr ⟨7, 1, 1⟩ = .ok ⟨8, 1, 1⟩ := rfl
  have e2 : selectSizes vecC.tr ⟨2, 1, 1⟩ = .ok ⟨8, 1, 1⟩ := rfl
  have g7 : selectSizes vecC.tr ⟨grow 7, 1, 1⟩ = .ok ⟨8, 1, 1⟩ := rfl
  have g8 : selectSizes vecC.tr ⟨grow 8, 1, 1⟩ = .ok ⟨16, 1, 1⟩ := rfl
  refine VecList.Legal.det 0 (some (List.replicate 7 demoCell)) ⟨rfl, .inl rfl⟩ ?_ ?_
  · intro σ' out h; simp only [VecList.Post, VecList.Alloc, e7] at h; exact h.2
  refine VecList.Legal.det 1 (some (List.replicate 2 (dfltCell plainL 0))) ⟨rfl, .inl rfl⟩ ?_ ?_
  · intro σ' out h; simp only [VecList.Post, VecList.Alloc, e2] at h; exact h.2
  refine VecList.Legal.det 0 (some (List.replicate 7 demoCell ++ [fun _ _ => 8])) ⟨_, rfl⟩ ?_ ?_
  · rintro σ' out ⟨l, hl, ⟨_, h⟩ | ⟨e, h, k, _⟩⟩
    · cases hl; exact h
    · cases hl; simp only [List.length_replicate] at k; rw [g7] at k; cases k
  refine VecList.Legal.det 0 (some (List.replicate 7 demoCell ++ [fun _ _ => 8] ++ [fun _ _ => 9])) ⟨_, rfl⟩ ?_ ?_
  · rintro σ' out ⟨l, hl, ⟨_, h⟩ | ⟨e, h, k, _⟩⟩
    · cases hl; exact h
    · cases hl
      simp only [List.length_append, List.length_replicate, List.length_singleton] at k; rw [g8] at k; cases k
  refine VecList.Legal.det 0 (some ((List.replicate 7 demoCell ++ [fun _ _ => 8] ++ [fun _ _ => 9]).set 1 (fun _ _ => 5)))
    ⟨_, rfl, by decide⟩ ?_ ?_
  · rintro σ' out ⟨l, hl, _, h⟩
    cases hl; exact h
  exact ⟨⟨_, rfl, by decide⟩, fun _ _ _ => trivial⟩

example := C28_history_partial vecC_WF vecC_one vecC_roomy vecOps vec_legal
example := C33_lists_partial vecC_WF vecC_one vecC_roomy vecOps vec_legal
example := C34_partial (V := Int) (dv := 0) (asym := false) plainL_WF (xs := [8, 16]) (ys := []) (zs := []) (by decide) (.inl rfl)
  vecOps vec_legal

/-- A state with a vector of seven elements, and free variables. -/
theorem vec_state : ∃ w : VecWorld Int, VecValid vecC 0 w ∧ VecIs vecC w 0 (List.replicate 7 demoCell) ∧ w.v 1 = none := by
  have hleg : VecList.Legal vecC 0 VecList.start [.newFill 0 7 demoCell] := ⟨⟨rfl, .inl rfl⟩, fun _ _ _ => trivial⟩
  obtain ⟨w, outs, τ, σ, k1, k2, hR, h⟩ := list_run vecC_WF vecC_one vecC_roomy 0 _ VR.init VL.init hleg
  obtain ⟨out, outs', σ1, _, hp, k2⟩ := k2
  obtain ⟨_, rfl⟩ := k2
  have e7 : selectSizes vecC.tr ⟨7, 1, 1⟩ = .ok ⟨8, 1, 1⟩ := rfl
  simp only [VecList.Post, VecList.Alloc, e7] at hp
  obtain ⟨_, rfl⟩ := hp
  exact ⟨w, ⟨_, _, hleg, k1⟩, VecIs.of_lists vecC_WF vecC_one hR h (upd_self _ _ _) 0, hR.absent (h.absent rfl)⟩

/-- The hypotheses of the theorems on single operations can be met. -/
example : ∃ w : VecWorld Int,
    (∃ w', Steps vecC w (.new 1 3) w' .unit) ∧ (∃ w', Steps vecC w (.set 0 3 demoCell) w' .unit) ∧
    (∃ w', Steps vecC w (.pop 0 demoCell) w' .unit) ∧ (∃ w', Steps vecC w (.clear 0) w' .unit) ∧
    (∃ w', Steps vecC w (.resize 0 4) w' .unit ∧ VecIs vecC w' 0 (List.replicate 4 demoCell)) ∧
    (∃ w' out, Steps vecC w (.resize 0 12) w' out) ∧ (∃ w' out, Steps vecC w (.push 0 demoCell) w' out) ∧
    (∃ w' out, Steps vecC w (.reserve 0 1) w' out) ∧ (∃ w' out, Steps vecC w (.reserve 0 9) w' out) := by
  obtain ⟨w, hV, h0, h1⟩ := vec_state
  refine ⟨w, ?_, ?_, ?_, ?_, ?_, ?_, ?_, ?_, ?_⟩
  · obtain ⟨w', k, _⟩ := C28_new vecC_WF vecC_one vecC_roomy hV h1 (n := 3) (e := ⟨8, 1, 1⟩) rfl (.inl rfl); exact ⟨w', k⟩
  · obtain ⟨w', k, _⟩ := C28_set vecC_WF vecC_one vecC_roomy hV h0 (i := 3) (by simp) demoCell; exact ⟨w', k⟩
  · obtain ⟨w', k, _⟩ := C28_pop vecC_WF vecC_one vecC_roomy hV h0 (by simp) demoCell; exact ⟨w', k⟩
  · obtain ⟨w', k, _⟩ := C28_clear vecC_WF vecC_one vecC_roomy hV h0; exact ⟨w', k⟩
  · exact C28_shrink vecC_WF vecC_one vecC_roomy hV h0 (m := 4) (by simp)
  · rcases C28_enlarge_partial vecC_WF vecC_one vecC_roomy hV h0 (m := 12) (by simp) with ⟨w', _, k, _⟩ | ⟨w', e, _, k, _⟩
    · exact ⟨w', _, k⟩
    · exact ⟨w', _, k⟩
  · rcases C29_push vecC_WF vecC_one vecC_roomy hV h0 demoCell with ⟨w', k, _⟩ | ⟨w', e, _, _, k, _⟩
    · exact ⟨w', _, k⟩
    · exact ⟨w', _, k⟩
  · obtain ⟨w', out, k, _⟩ := C30_reserve_partial vecC_WF vecC_one vecC_roomy hV h0 (m := 1) (by
      intro e he; have e1 : selectSizes vecC.tr ⟨1, 1, 1⟩ = .ok ⟨8, 1, 1⟩ := rfl
      rw [e1] at he; cases he; simp)
    exact ⟨w', out, k⟩
  · obtain ⟨w', out, k, _⟩ := C30_grow vecC_WF vecC_one vecC_roomy hV h0 (m := 9) (by simp); exact ⟨w', out, k⟩

/-- A vector of nine elements in a buffer for sixteen: `reserve(1)` fails, `reserve(9)` does not. -/
example : ∃ w : VecWorld Int, VecIs vecC w 0 (List.replicate 9 demoCell) ∧ (∃ u, w.step vecC (.reserve 0 1) = .error u) ∧
    ∃ w' out, Steps vecC w (.reserve 0 9) w' out ∧ VecIs vecC w' 0 (List.replicate 9 demoCell) := by
  have hleg : VecList.Legal vecC 0 VecList.start [.newFill 0 9 demoCell] := ⟨⟨rfl, .inl rfl⟩, fun _ _ _ => trivial⟩
  obtain ⟨w, outs, τ, σ, k1, k2, hR, h⟩ := list_run vecC_WF vecC_one vecC_roomy 0 _ VR.init VL.init hleg
  obtain ⟨out, outs', σ1, _, hp, k2⟩ := k2
  obtain ⟨_, rfl⟩ := k2
  have e9 : selectSizes vecC.tr ⟨9, 1, 1⟩ = .ok ⟨16, 1, 1⟩ := rfl
  simp only [VecList.Post, VecList.Alloc, e9] at hp
  obtain ⟨_, rfl⟩ := hp
  have hV : VecValid vecC 0 w := ⟨_, _, hleg, k1⟩
  have h9 : VecIs vecC w 0 (List.replicate 9 demoCell) := VecIs.of_lists vecC_WF vecC_one hR h (upd_self _ _ _) 0
  have hne : vecC.L ≠ [] := by simp [vecC, plainL]
  refine ⟨w, h9, C30_false_all vecC_WF hne vecC_one vecC_roomy hV h9 (e := ⟨8, 1, 1⟩) rfl (by simp),
    (C30_iff vecC_WF hne vecC_one vecC_roomy hV h9 9).2 fun e he => ?_⟩
  rw [e9] at he; cases he; simp

/-- One element of vector 0 is changed; vector 1 is not affected. -/
example (w : VecWorld Int) (outs : List (ArrOut Int)) (h : VecWorld.init.run vecC (vecOps.take 5) = .ok (w, outs))
    (l : List (Cell Int)) (hl : VecIs vecC w 1 l) : ∃ w' out, Steps vecC w (.get 0 8 demoCell) w' out ∧ VecIs vecC w' 1 l :=
  C28_others (dv := 0) vecC_WF vecC_one vecC_roomy (ops := vecOps.take 5) (op := .get 0 8 demoCell) vec_legal h (by decide) hl

/-- The hypotheses of `C28_history_dflt_partial`, `C29_push_dflt`, `C31_push_iff` and `C33_partial` can be met. -/
example : ∃ (w w' : VecWorld Int) (out : ArrOut Int), Steps ⟨plainL, .dflt, false⟩ w (.push 0 demoCell) w' out := by
  have hleg : VecList.Legal ⟨plainL, .dflt, false⟩ (0 : Int) VecList.start [.newFill 0 7 demoCell] := ⟨⟨rfl, .inl rfl⟩, fun _ _ _ => trivial⟩
  have := C28_history_dflt_partial plainL_WF _ hleg
  obtain ⟨w, outs, τ, σ, k1, k2, hR, h⟩ := list_run plainL_WF OneD.dflt Roomy.dflt 0 _ VR.init VL.init hleg
  obtain ⟨out, outs', σ1, _, hp, k2⟩ := k2
  obtain ⟨_, rfl⟩ := k2
  have e7 : selectSizes .dflt ⟨7, 1, 1⟩ = .ok ⟨32, 1, 1⟩ := rfl
  simp only [VecList.Post, VecList.Alloc, e7] at hp
  obtain ⟨_, rfl⟩ := hp
  obtain ⟨w', k, _⟩ := (C29_push_dflt plainL_WF ⟨_, _, hleg, k1⟩ (VecIs.of_lists plainL_WF OneD.dflt hR h (upd_self _ _ _) 0) demoCell).2.1 (by simp)
  exact ⟨w, w', _, k⟩

example := C33_partial (C := vecC) (dv := 0) vecC_WF vecC_one vecOps (σ := _) (outs := _) rfl

/-- The hypotheses of `C31_push_iff` can be met. -/
example : ∃ w w' : VecWorld Int, Steps vecC w (.push 0 demoCell) w' .unit ∧ w'.step vecC (.size 0) = .ok (w', .nat 8) := by
  have hleg : VecList.Legal vecC 0 VecList.start [.newFill 0 7 demoCell] := ⟨⟨rfl, .inl rfl⟩, fun _ _ _ => trivial⟩
  obtain ⟨w, outs, τ, σ, k1, k2, hR, h⟩ := list_run vecC_WF vecC_one vecC_roomy 0 _ VR.init VL.init hleg
  obtain ⟨out, outs', σ1, _, hp, k2⟩ := k2
  obtain ⟨_, rfl⟩ := k2
  have e7 : selectSizes vecC.tr ⟨7, 1, 1⟩ = .ok ⟨8, 1, 1⟩ := rfl
  have g7 : selectSizes vecC.tr ⟨grow 7, 1, 1⟩ = .ok ⟨8, 1, 1⟩ := rfl
  simp only [VecList.Post, VecList.Alloc, e7] at hp
  obtain ⟨_, rfl⟩ := hp
  have hV : VecValid vecC 0 w := ⟨_, _, hleg, k1⟩
  have h7 : VecIs vecC w 0 (List.replicate 7 demoCell) := VecIs.of_lists vecC_WF vecC_one hR h (upd_self _ _ _) 0
  have hd : w.step vecC (.capacity 0) = .ok (w, .nat 7) := by cases k1; rfl
  rcases C29_push vecC_WF vecC_one vecC_roomy hV h7 demoCell with ⟨w', k, _⟩ | ⟨w', e, _, he, _⟩
  · obtain ⟨d', k2, _⟩ := C31_push_iff vecC_WF vecC_one vecC_roomy hV h7 hd demoCell k
    exact ⟨w, w', k, by simpa using k2⟩
  · simp only [List.length_replicate] at he; rw [g7] at he; cases he

/-- The hypotheses of `C32_copy_iff` and `C32_assign_partial` can be met. -/
example : ∃ w : VecWorld Int, (∃ w', Steps vecC w (.assign 0 0) w' .unit) ∧ ∃ w' out, Steps vecC w (.copy 1 0) w' out := by
  have hleg : VecList.Legal vecC 0 VecList.start [.newFill 0 7 demoCell] := ⟨⟨rfl, .inl rfl⟩, fun _ _ _ => trivial⟩
  obtain ⟨w, outs, τ, σ, k1, k2, hR, h⟩ := list_run vecC_WF vecC_one vecC_roomy 0 _ VR.init VL.init hleg
  obtain ⟨out, outs', σ1, _, hp, k2⟩ := k2
  obtain ⟨_, rfl⟩ := k2
  have e7 : selectSizes vecC.tr ⟨7, 1, 1⟩ = .ok ⟨8, 1, 1⟩ := rfl
  simp only [VecList.Post, VecList.Alloc, e7] at hp
  obtain ⟨_, rfl⟩ := hp
  have h7 : VecIs vecC w 0 (List.replicate 7 demoCell) := VecIs.of_lists vecC_WF vecC_one hR h (upd_self _ _ _) 0
  have hp : VecProg vecC 0 w := by cases k1; exact ⟨[.newFill 0 7 demoCell], _, _, rfl, rfl⟩
  have hd : w.step vecC (.capacity 0) = .ok (w, .nat 7) := by cases k1; rfl
  have hn : w.v 1 = none := by cases k1; rfl
  obtain ⟨w1, k3, _⟩ := C32_assign_partial vecC_WF vecC_one hp h7 h7 hd (by simp)
  obtain ⟨w2, out, k4, _⟩ := (C32_copy_iff vecC_WF vecC_one hp (by simp [vecC, plainL]) hn h7 hd).2 (by simp)
  exact ⟨w, ⟨w1, k3⟩, w2, out, k4⟩

/-! ### Counterexamples -/

/-- Reads all that a program observes, if it runs. -/
def outsOf {V : Type} (r : Except UB (VecWorld V × List (ArrOut V))) : Except UB (List (ArrOut V)) :=
  match r with
  | .ok (_, outs) => .ok outs
  | .error u => .error u

/-- C28 is false for the values of elements which `resize` adds: they are whatever the buffer contained before. In contrast to
    `std::vector` the program observes 7 instead of the default value 0. -/
theorem C28_false : outsOf (VecWorld.init.run vecC
    [.newFill 0 3 (fun _ _ => 7), .clear 0, .resize 0 3, .peek 0 0 0 0 0, .new 1 3, .peek 1 0 0 0 0]) =
    .ok [.unit, .unit, .unit, .val 7, .unit, .val 0] := rfl

/-- C29 is false if the value type defines sizes below five: with sizes 4 and 8 `push_back` to a vector of four elements requests
    a buffer for `size_t(4 * 1.2) = 4` elements, and writes beyond its end. -/
theorem C29_false : outsOf (VecWorld.init.run (V := Int) ⟨plainL, .uniform1 [4, 8], false⟩
    [.newFill 0 4 (fun _ _ => 7), .push 0 (fun _ _ => 7)]) = .error .oob := rfl

/-- A case of `C29_false_all`. -/
example : ∃ (w : VecWorld Int) (σ : VecSpec.State Int) (outs : List (ArrOut Int)),
    VecSpec.run ⟨plainL, .uniform1 [3, 8], false⟩ 0 VecSpec.start [.newFill 0 3 (fun _ _ => 7)] = some (σ, outs) ∧
    VecWorld.init.run ⟨plainL, .uniform1 [3, 8], false⟩ [.newFill 0 3 (fun _ _ => 7)] = .ok (w, outs) ∧
    w.step ⟨plainL, .uniform1 [3, 8], false⟩ (.size 0) = .ok (w, .nat 3) ∧
    w.step ⟨plainL, .uniform1 [3, 8], false⟩ (.capacity 0) = .ok (w, .nat 3) ∧
    selectSizes (.uniform1 [3, 8]) ⟨3, 1, 1⟩ = .ok ⟨3, 1, 1⟩ :=
  ⟨_, _, _, rfl, rfl, rfl, rfl, rfl⟩

/-- C30 is false: `reserve(1)` on a vector of nine elements allocates a buffer for eight, and copies nine elements into it. -/
theorem C30_false : outsOf (VecWorld.init.run vecC [.newFill 0 9 (fun _ _ => 7), .reserve 0 1]) = .error .oob := rfl

/-- C31 is false: `capacity()` reports the dimension of the grid, but `push_back` uses its padding. -/
theorem C31_false : outsOf (VecWorld.init.run (V := Int) ⟨plainL, .dflt, false⟩ [.new 0 0, .push 0 (fun _ _ => 7), .size 0, .capacity 0]) =
    .ok [.unit, .unit, .nat 1, .nat 0] := rfl

/-- C32 is false: elements in the padding are not copied; reading them yields indeterminate values. -/
theorem C32_false : outsOf (VecWorld.init.run (V := Int) ⟨plainL, .dflt, false⟩
    [.newFill 0 1 (fun _ _ => 7), .push 0 (fun _ _ => 8), .copy 1 0, .size 1, .peek 1 1 0 0 0]) = .error .indet := rfl

/-- A vector of this kind: two elements, capacity one. -/
example : ∃ w : VecWorld Int, VecProg ⟨plainL, .dflt, false⟩ 0 w ∧ w.step ⟨plainL, .dflt, false⟩ (.size 0) = .ok (w, .nat 2) ∧
    w.step ⟨plainL, .dflt, false⟩ (.capacity 0) = .ok (w, .nat 1) ∧ w.v 1 = none :=
  ⟨_, ⟨[.newFill 0 1 (fun _ _ => 7), .push 0 (fun _ _ => 8)], _, _, rfl, rfl⟩, rfl, rfl, rfl⟩

/-- C32 is also false for copies of vectors which have not been enlarged: `push_back` and `reserve` on the copy read the member
    `my_extent_x`, which the copy constructor of soa_grid does not set. -/
theorem C32_false_extent : outsOf (VecWorld.init.run (V := Int) ⟨plainL, .dflt, false⟩
    [.newFill 0 1 (fun _ _ => 7), .copy 1 0, .push 1 (fun _ _ => 8)]) = .error .uninitField := rfl

/-- C33 is false: `push_back` into the padding of the buffer assigns to an object (here the third member) which has never been
    constructed. -/
theorem C33_false : outsOf (VecWorld.init.run (V := Int) ⟨demoL, .dflt, false⟩
    [.new 0 0, .push 0 demoCell]) = .error .lifetime := rfl

/-- A case of `C33_false_push`: a vector of three elements, capacity three, extent 32, and a struct with a non-trivial member. -/
example : ∃ (w : VecWorld Int) (σ : VecSpec.State Int) (outs : List (ArrOut Int)),
    VecSpec.run ⟨demoL, .dflt, false⟩ 0 VecSpec.start [.newFill 0 3 demoCell] = some (σ, outs) ∧
    VecWorld.init.run ⟨demoL, .dflt, false⟩ [.newFill 0 3 demoCell] = .ok (w, outs) ∧
    w.step ⟨demoL, .dflt, false⟩ (.size 0) = .ok (w, .nat 3) ∧ w.step ⟨demoL, .dflt, false⟩ (.capacity 0) = .ok (w, .nat 3) ∧
    selectSizes .dflt ⟨3, 1, 1⟩ = .ok ⟨32, 1, 1⟩ ∧ ∃ m ∈ demoL, m.ty.triv = false :=
  ⟨_, _, _, rfl, rfl, rfl, rfl, rfl, _, List.mem_cons_of_mem _ (List.mem_cons_of_mem _ List.mem_cons_self), rfl⟩

/-- C34 is false: with uniform 3D sizes 4 and 8 `reserve` takes `extent_x()` for the distance of the arrays of the members, which
    are `extent_x() * extent_y() * extent_z()` elements apart; the second member is read from the array of the first one, whose
    padding has never been written. -/
theorem C34_false : outsOf (VecWorld.init.run (V := Int) ⟨plainL, .uniform3 [4, 8], false⟩
    [.newFill 0 3 (fun _ _ => 7), .reserve 0 5]) = .error .indet := rfl

/-- C34 is false for all size traits which select an extent above one in y or z, all structs with more than one array (two members, or
    an array of two elements), and all vectors which are not empty: as soon as `reserve`, `resize` or `push_back` have to reallocate
    the new vector, the program has undefined behaviour. -/
theorem C34_false_all {V : Type} [DecidableEq V] {C : Cfg V} (hL : C.L.WF) (h2 : 2 ≤ (C.L.map Member.elems).sum) {w : VecWorld V} {s n : Nat} (hs : w.v s = none)
    (hn : 0 < n) {e : Ext} (he : selectSizes C.tr ⟨n, 1, 1⟩ = .ok e) (hyz : 1 < e.y * e.z) :
    ∃ w1, w.step C (.new s n) = .ok (w1, .unit) ∧
      (∀ m em, selectSizes C.tr ⟨m, 1, 1⟩ = .ok em → ∃ u, w1.step C (.reserve s m) = .error u) ∧
      (∀ m em, selectSizes C.tr ⟨m, 1, 1⟩ = .ok em → n < m → ∃ u, w1.step C (.resize s m) = .error u) ∧
      (∀ em c, n = e.x → selectSizes C.tr ⟨grow n, 1, 1⟩ = .ok em → ∃ u, w1.step C (.push s c) = .error u) := by
  obtain ⟨m0, L', hL0⟩ : ∃ m0 L', C.L = m0 :: L' := by
    cases hc : C.L with
    | nil => rw [hc] at h2; simp at h2
    | cons m0 L' => exact ⟨m0, L', rfl⟩
  obtain ⟨w1, g, b, k1, k2, k3, k4, k5, k6, k7, k8⟩ := new_gap hL hL0 hs hn he hyz
  have hres : ∀ m em, selectSizes C.tr ⟨m, 1, 1⟩ = .ok em → ∃ u, SVec.reserve C ⟨g, n⟩ m w1.h = .ub u := fun m em hm =>
    reserve_gap (v := ⟨g, n⟩) (h := w1.h) hL hL0 h2 k4 k5 k6 (by omega) hn k8 hm
  refine ⟨w1, k1, fun m em hm => ?_, fun m em hm hlt => ?_, fun em c hne hm => ?_⟩
  · obtain ⟨u, hu⟩ := hres m em hm
    exact ⟨u, by simp only [VecWorld.step, VecWorld.withV, k2, hu, VecWorld.ofVS]⟩
  · obtain ⟨u, hu⟩ := hres m em hm
    have hx : m > g.dim.x := by rw [k3]; exact hlt
    exact ⟨u, by simp only [VecWorld.step, VecWorld.withV, k2, SVec.resize, if_pos hx, hu, Res.bind, VecWorld.ofVS]⟩
  · obtain ⟨u, hu⟩ := hres _ em hm
    exact ⟨u, by simp only [VecWorld.step, VecWorld.withV, k2, SVec.push, k4, if_pos hne, hu, Res.bind, VecWorld.ofVS]⟩

example := C34_false_all (V := Int) (C := ⟨plainL, .uniform3 [4, 8], false⟩) plainL_WF (by decide) (w := VecWorld.init) (s := 0) (n := 4)
  rfl (by decide) (e := ⟨4, 4, 4⟩) rfl (by decide)

end LFA.Props
