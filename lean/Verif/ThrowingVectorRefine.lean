import Verif.ThrowingVectorProof

/-
  Refinement for soa_vectors whose members throw.
-/
set_option linter.unusedSectionVars false
set_option linter.unusedVariables false
namespace LFA
namespace Throwing
namespace Vec
open ArrSpec (Asg objs asgStruct asgRow throws byStruct byObj)
open Arr (Kind Writes Reach afterK setK)
open World (upd)

variable {V : Type} [DecidableEq V] {C : Cfg V} {src : Block V → Block V} {n : Nat} {u : Option V}

/-- Outcomes of the program and of its specification. -/
def VAgree (C : Cfg V) : Option (VecWorld V) → Option (VecSpec.State V) → Prop
  | none, none => True
  | some w, some σ => VR C w σ
  | _, _ => False

/-! ### Counting objects -/

theorem byStruct_add (L : Layout V) (m m' : Nat) : byStruct L (m + m') = byStruct L m ++ byStruct L m' := by
  unfold byStruct
  rw [List.range_add, List.flatMap_append, List.flatMap_map]

theorem throws_append_left {L : Layout V} {ks ks' : List (Nat × Nat)} (h : n < ks.length) : throws L (ks ++ ks') n = throws L ks n := by
  unfold throws
  rw [List.getElem?_append_left h]

theorem throws_append_right {L : Layout V} {ks ks' : List (Nat × Nat)} (h : ks.length ≤ n) :
    throws L (ks ++ ks') n = throws L ks' (n - ks.length) := by
  unfold throws
  rw [List.getElem?_append_right h]

theorem throws_byStruct_le {L : Layout V} {m m' : Nat} (h : n < m * (objs L).length) (hm : m ≤ m') :
    throws L (byStruct L m') n = throws L (byStruct L m) n := by
  rw [show m' = m + (m' - m) by omega, byStruct_add, throws_append_left (by rw [byStruct_length]; exact h)]

/-! ### Constructors of grids -/

theorem constructed_blank {m : Nat} {e : Ext} (hs : selectSizes C.tr ⟨m, 1, 1⟩ = .ok e) :
    constructed C blank ⟨m, 1, 1⟩ = m * (objs C.L).length := by
  unfold constructed blank
  rw [if_neg (by simp)]
  simp only [hs]
  exact constructList_length1 _ _ _

theorem constructed_blank_error {m : Nat} {e : Exc} (hs : selectSizes C.tr ⟨m, 1, 1⟩ = .error e) :
    constructed C blank ⟨m, 1, 1⟩ = 0 := by
  unfold constructed blank
  rw [if_neg (by simp)]
  simp only [hs]

/-- `resize` if the constructors of the members do not throw. -/
theorem resize_quiet {g : Grid} {m : Nat} {h : Heap V} {x : Unit} {p : GS V} (hr : g.resize C ⟨m, 1, 1⟩ h = .ok x p)
    (hq : throws C.L (byStruct C.L m) n = false) : Throwing.resize C g ⟨m, 1, 1⟩ n u h = .ok none := by
  unfold Throwing.resize
  unfold Grid.resize at hr
  by_cases hd : g.dim.x = (⟨m, 1, 1⟩ : Ext).x ∧ g.dim.y = (⟨m, 1, 1⟩ : Ext).y ∧ g.dim.z = (⟨m, 1, 1⟩ : Ext).z
  · rw [if_pos hd]
  · rw [if_neg hd] at hr ⊢
    cases hdd : g.destroyAndDeallocate C h with
    | ub e => rw [hdd] at hr; cases hr
    | throw _ _ => rfl
    | ok _ h1 =>
      simp only
      cases hs : selectSizes C.tr ⟨m, 1, 1⟩ with
      | error e => rfl
      | ok e =>
        simp only [onBuffer, Heap.alloc, if_true]
        rw [upTo_quiet (constructList_kind1 C.L m e) hq]
        rfl

theorem newGrid_quiet {m : Nat} {h : Heap V} (hq : throws C.L (byStruct C.L m) n = false) : newGrid C m n u h = .ok none := by
  unfold newGrid Throwing.resize
  rw [if_neg (by simp [blank])]
  simp only [blank, Grid.destroyAndDeallocate]
  cases hs : selectSizes C.tr ⟨m, 1, 1⟩ with
  | error e => rfl
  | ok e =>
    simp only [onBuffer, Heap.alloc, if_true]
    rw [upTo_quiet (constructList_kind1 C.L m e) hq]
    rfl

/-! ### Grids which are destroyed again -/

/-- A grid which has been constructed in the meantime is destroyed. -/
theorem unwound_ok (hL : C.L.WF) {h h' : Heap V} {g : Grid} {a : AVec V} {new : Nat} (hg : VecOK C h' g a) (hid : g.data = some new)
    (hsw : Swapped h h' none new) (hf : ∀ i, h.next ≤ i → h.blk i = none) :
    ∃ h'', unwound C g h' = .ok (some h'') ∧ (∀ i, h''.blk i = h.blk i) ∧ h.next ≤ h''.next ∧
      ((∀ b ∈ h.freed, Clean b) → ∀ b ∈ h''.freed, Clean b) := by
  obtain ⟨id, h2, d1, d2, d3, d4, d5, b, d6, d7⟩ := hg.dtor hL
  rw [hid] at d1; cases d1
  refine ⟨h2, by simp only [unwound, d2], fun i => ?_, ?_, fun hc b' hb' => ?_⟩
  · by_cases hi : i = new
    · subst hi; rw [d4, hf _ hsw.lo]
    · rw [d5 i hi]
      by_cases hlt : i < h.next
      · exact hsw.kept i (fun h => nomatch h) hlt
      · rw [hsw.rest i (by omega) hi, hf i (by omega)]
  · have := hsw.lo; have := hsw.hi; omega
  · rw [d7] at hb'
    rcases List.mem_append.1 hb' with hb' | hb'
    · exact hsw.clean hc b' hb'
    · rw [List.mem_singleton.1 hb']; exact d6

/-- Nothing but freed memory has been added. -/
theorem VR.same {w : VecWorld V} {σ : VecSpec.State V} (hR : VR C w σ) {h' : Heap V} (hb : ∀ i, h'.blk i = w.h.blk i)
    (hn : w.h.next ≤ h'.next) (hc : (∀ b ∈ w.h.freed, Clean b) → ∀ b ∈ h'.freed, Clean b) : VR C ⟨h', w.v⟩ σ :=
  ⟨fun s => (hR.slots s).frame fun _ id _ _ => hb id, hR.own, fun id b h => hR.live id b (by rw [← hb id]; exact h),
    fun id h => by rw [hb id]; exact hR.fresh id (Nat.le_trans hn h), hc hR.clean⟩

theorem upd_eq {α : Type} {f : Nat → Option α} {s : Nat} {x : α} (h : f s = some x) : upd f s (some x) = f := by
  funext t
  by_cases ht : t = s
  · subst ht; rw [upd_self, h]
  · rw [upd_ne _ _ ht]

/-! ### reserve -/

theorem row_length (C : Cfg V) (dv : V) (a : AVec V) (m : Nat) : (VecSpec.row C dv a m).length = m := by simp [VecSpec.row]

theorem row_get {dv : V} {a : AVec V} {m : Nat} (hl : ∀ i, i < m → (a.cells i).isSome = true) {i : Nat} (hi : i < (VecSpec.row C dv a m).length) :
    a.cells i = some (VecSpec.row C dv a m)[i] := by
  rw [row_length] at hi
  obtain ⟨c, hc⟩ := Option.isSome_iff_exists.1 (hl i hi)
  simp [VecSpec.row, hc]

/-- Outcome of a throwing `reserve`: the heap contains what it did before. -/
theorem reserve_fail (hL : C.L.WF) (h1 : OneD C.tr) (dv : V) {h : Heap V} {g : Grid} {a : AVec V} (hg : VecOK C h g a)
    (hf : ∀ i, h.next ≤ i → h.blk i = none) {m : Nat} {r : Option (AVec V)} (hs : VecSpec.failReserve C a m n = some r) :
    (r = none ∧ reserve C ⟨g, a.n⟩ m n u h = .ok none) ∨
    (r = some a ∧ ∃ h', reserve C ⟨g, a.n⟩ m n u h = .ok (some h') ∧ (∀ i, h'.blk i = h.blk i) ∧ h.next ≤ h'.next ∧
      ((∀ b ∈ h.freed, Clean b) → ∀ b ∈ h'.freed, Clean b)) := by
  unfold VecSpec.failReserve at hs
  cases hsel : selectSizes C.tr ⟨m, 1, 1⟩ with
  | error e =>
    rw [hsel] at hs
    cases hs
    refine .inl ⟨rfl, ?_⟩
    unfold reserve
    simp only [constructed_blank_error hsel, Nat.not_lt_zero, if_false, new_throw hsel]
  | ok e =>
    rw [hsel] at hs
    simp only at hs
    by_cases hc : a.known = true ∧ a.n ≤ e.x ∧ a.n ≤ a.ext ∧ (∀ i, i < a.n → (a.cells i).isSome = true)
    · rw [if_pos hc] at hs
      obtain ⟨hk, hn, hn', hl⟩ := hc
      obtain ⟨ng, h0, ng', h2, new, k1, k2, k3, k4, k5, k6, k7⟩ := reserve_grid hL h1 hf hsel dv
      obtain ⟨ng0, h00, v1, v2, v3, v4⟩ := new_vec hL h1 dv hf hsel
      rw [k1] at v1
      obtain ⟨rfl, rfl⟩ : ng = ng0 ∧ h0 = h00 := by
        injection v1 with _ v1; injection v1 with v1 v1'; exact ⟨v1, v1'⟩
      have hdim : ng.dim = ⟨m, 1, 1⟩ := v4.dim
      have hbuilt : VecSpec.built C m e.x = constructed C blank ⟨m, 1, 1⟩ + constructed C ng ⟨e.x, 1, 1⟩ := by
        rw [constructed_blank hsel]
        unfold VecSpec.built constructed
        by_cases hme : m = e.x
        · rw [if_pos hme, if_pos (by rw [hdim]; exact ⟨hme, rfl, rfl⟩)]; rfl
        · rw [if_neg hme, if_neg (by rw [hdim]; exact fun h => hme h.1), h1.idem hsel]
          simp only [constructList_length1]
          rw [Nat.add_mul]
      unfold reserve
      simp only [k1, k2]
      rw [constructed_blank hsel] at hbuilt ⊢
      by_cases hb : n < VecSpec.built C m e.x
      · rw [if_pos hb] at hs
        unfold VecSpec.failCtor at hs
        by_cases ht : throws C.L (byStruct C.L (if m = e.x then m else m + e.x)) n = true
        · rw [if_pos ht] at hs; cases hs
        · rw [if_neg ht] at hs
          cases hs
          rw [Bool.not_eq_true] at ht
          refine .inl ⟨rfl, ?_⟩
          by_cases hb1 : n < m * (objs C.L).length
          · rw [if_pos hb1]
            exact newGrid_quiet (by
              rw [← ht]
              refine (throws_byStruct_le hb1 ?_).symm
              split <;> omega)
          · rw [if_neg hb1, if_pos (by omega)]
            have hme : m ≠ e.x := by
              rintro hme
              have : constructed C ng ⟨e.x, 1, 1⟩ = 0 := by
                unfold constructed
                rw [if_pos (by rw [hdim]; exact ⟨hme, rfl, rfl⟩)]
              omega
            rw [if_neg hme, byStruct_add, throws_append_right (by rw [byStruct_length]; omega), byStruct_length] at ht
            rw [resize_quiet k3 ht]
      · rw [if_neg hb] at hs
        rw [if_neg (by omega), if_neg (by omega)]
        simp only [k3]
        obtain ⟨id, b, q1, q2, _, q3⟩ := hg.buf
        have hid : id < h.next := by
          by_contra hc
          rw [hf id (by omega)] at q2; cases q2
        have q2' : h2.blk id = some b := by rw [k5.kept id (fun hh => (nomatch hh)) hid]; exact q2
        rw [k6] at k7
        have vg := VecOK.ofGrid (n := a.n) k7 (by have := h1.idem hsel; rwa [k6] at this)
        have hlive : ∀ i, i < e.x → ((fun i => if i < e.x then some (Spec.dfltCells C.L dv i 0 0) else none : Nat → Option (Cell V)) i).isSome = true := by
          intro i hi; simp [hi]
        let new' := VecSpec.row C dv a a.n
        have hlen : new'.length = a.n := row_length C dv a a.n
        have hw := loadList_writes1 (src := fun _ => b) (M := a.ext) hL (e := e.x) new' (by omega)
          (c0 := vcont fun i => if i < e.x then some (Spec.dfltCells C.L dv i 0 0) else none)
          (fun r k i hi => vcont_isSome (hlive i (by omega)) r k) (asgRow C.L 0 new')
          (fun _ _ _ _ r m k i hi hm hk => q3.read hL hm hk (by omega) (vcont_some (row_get hl hi) r k))
        rw [hlen] at hw
        obtain ⟨oh, c1, c2, c3⟩ := callback_patch (ops := fun e => loadList C.L e a.ext [⟨0, 0, 0, a.n⟩] 0) hL vg hw
          (fun t ht => by
            obtain ⟨i, hi, p1, -⟩ := Arr.mem_asgRow ht
            exact hlive _ (by omega)) (n - m * (objs C.L).length - constructed C ng ⟨e.x, 1, 1⟩) u
        rw [Arr.asgRow_keys, hlen] at c2
        have hex := hg.ex hk
        simp only [hex, q1, Option.bind_some, q2', c1]
        rw [hbuilt, ← Nat.sub_sub] at hs
        rw [← c2] at hs
        cases oh with
        | none => cases hs; exact .inl ⟨rfl, rfl⟩
        | some h3 =>
          cases hs
          obtain ⟨id', b', e1, e2, e3⟩ := c3 h3 rfl
          rw [k4] at e1; cases e1
          subst e2
          exact .inr ⟨rfl, unwound_ok hL e3 k4 (k5.set (fun i hi => (nomatch hi)) b') hf⟩
    · rw [if_neg hc] at hs; cases hs

/-! ### set -/

theorem set_fail (hL : C.L.WF) {h : Heap V} {g : Grid} {a : AVec V} (hg : VecOK C h g a) {i N : Nat} {c : Cell V} {r : Option (AVec V)}
    (hs : VecSpec.failSet C a i c n u = some r) :
    (r = none ∧ set C ⟨g, N⟩ i c n u h = .ok none) ∨
    (∃ a' id b', r = some a' ∧ a'.n = a.n ∧ a' = { a with cells := a'.cells } ∧ g.data = some id ∧ set C ⟨g, N⟩ i c n u h = .ok (some (⟨g, N⟩, h.set id b')) ∧
      VecOK C (h.set id b') g a') := by
  unfold VecSpec.failSet at hs
  by_cases hw : VecSpec.Writable C.L a i
  · rw [if_pos hw] at hs
    unfold set
    by_cases ht : throws C.L (objs C.L) n = true
    · rw [if_pos ht] at hs
      cases hs
      have hc : (a.cells i).isSome = true := by
        rcases hw.2 with h | h
        · rw [throws_trivial h] at ht; cases ht
        · exact h
      have hwr := setOps_writesK (src := fun b => b) hL (e := ⟨a.ext, 1, 1⟩) (At1 a.ext i) rfl (by rw [prod1]; exact hw.1)
        (c0 := vcont a.cells) (asgStruct C.L i c) (fun r k => vcont_isSome hc r k) c
      rw [prod1, ← setList_one] at hwr
      obtain ⟨oh, c1, c2, c3⟩ := callback_patch (ops := fun e => setList C.L e 1 [c] i 0 0 1) hL hg hwr (fun t ht => by
        simp only [asgStruct, List.mem_map] at ht
        obtain ⟨q, -, rfl⟩ := ht
        exact hc) n u
      rw [Arr.asgStruct_keys, ht] at c2
      cases oh with
      | none => cases c2
      | some h' =>
        obtain ⟨id, b', e1, rfl, e3⟩ := c3 h' rfl
        exact .inr ⟨_, id, b', rfl, rfl, rfl, e1, by rw [c1]; rfl, e3⟩
    · rw [if_neg ht] at hs
      cases hs
      rw [Bool.not_eq_true] at ht
      refine .inl ⟨rfl, ?_⟩
      rw [callback_quiet (ops := fun e => setList C.L e 1 [c] i 0 0 1) hg (by rw [setList_one]; exact setOps_kindK C.L _ c) ht]
      rfl
  · rw [if_neg hw] at hs; cases hs

/-! ### Operations on existing vectors -/

/-- A member function which changed the buffer of `s` at most. -/
theorem VR.updBlock {w : VecWorld V} {σ : VecSpec.State V} (hR : VR C w σ) {s N : Nat} {g : Grid} {id : Nat} (hv : w.v s = some ⟨g, N⟩)
    (hid : g.data = some id) {b' : Block V} {a' : AVec V} (hok : VecOK C (w.h.set id b') g a') :
    VR C ⟨w.h.set id b', upd w.v s (some ⟨g, a'.n⟩)⟩ (upd σ s (some a')) :=
  VR.setBlock hR hv hid (.inr ⟨b', rfl⟩) hok

theorem failOn_some {σ : VecSpec.State V} {s : Nat} {f : AVec V → Option (Option (AVec V))} {r : Option (VecSpec.State V)}
    (h : VecSpec.failOn σ s f = some r) : ∃ a ra, σ s = some a ∧ f a = some ra ∧ r = ra.map fun a' => upd σ s (some a') := by
  unfold VecSpec.failOn at h
  cases hs : σ s with
  | none => rw [hs] at h; cases h
  | some a =>
    rw [hs] at h
    simp only [Option.map_eq_some_iff] at h
    obtain ⟨ra, h1, h2⟩ := h
    exact ⟨a, ra, rfl, h1, h2.symm⟩

theorem vset_fail (hL : C.L.WF) {w : VecWorld V} {σ : VecSpec.State V} (hR : VR C w σ) {s i : Nat} {c : Cell V} {r : Option (VecSpec.State V)}
    (hs : VecSpec.failOn σ s (fun a => VecSpec.failSet C a i c n u) = some r) : ∃ r', step C w n u (.set s i c) = .ok r' ∧ VAgree C r' r := by
  obtain ⟨a, ra, h1, h2, rfl⟩ := failOn_some hs
  obtain ⟨g, hg1, hg2⟩ := hR.vec h1
  simp only [step, step.withV, hg1]
  rcases set_fail (N := a.n) hL hg2 h2 with ⟨rfl, k⟩ | ⟨a', id, b', rfl, k1, -, k2, k3, k4⟩
  · rw [k]; exact ⟨none, rfl, trivial⟩
  · rw [k3]
    refine ⟨_, rfl, ?_⟩
    show VR C ⟨_, upd w.v s (some ⟨g, a.n⟩)⟩ (upd σ s (some a'))
    rw [← k1]
    exact VR.updBlock hR hg1 k2 k4

theorem vpop_fail (hL : C.L.WF) {w : VecWorld V} {σ : VecSpec.State V} (hR : VR C w σ) {s : Nat} {c : Cell V} {r : Option (VecSpec.State V)}
    (hs : VecSpec.failOn σ s (fun a =>
      if 0 < a.n then (VecSpec.failSet C a (a.n - 1) c n u).map (Option.map fun a' => { a' with n := a.n - 1 }) else none) = some r) :
    ∃ r', step C w n u (.pop s c) = .ok r' ∧ VAgree C r' r := by
  obtain ⟨a, ra, h1, h2, rfl⟩ := failOn_some hs
  obtain ⟨g, hg1, hg2⟩ := hR.vec h1
  split at h2
  · rename_i hpos
    rw [Option.map_eq_some_iff] at h2
    obtain ⟨ra, h2, rfl⟩ := h2
    simp only [step, step.withV, hg1, pop]
    rw [if_neg (by omega)]
    rcases set_fail (N := a.n - 1) hL hg2 h2 with ⟨rfl, k⟩ | ⟨a', id, b', rfl, k1, -, k2, k3, k4⟩
    · rw [k]; exact ⟨none, rfl, trivial⟩
    · rw [k3]
      exact ⟨_, rfl, VR.updBlock hR hg1 k2 (k4.withN (a.n - 1))⟩
  · cases h2

/-- What `reserve` leaves behind. -/
theorem reserve_agree (hL : C.L.WF) (h1 : OneD C.tr) (dv : V) {w : VecWorld V} {σ : VecSpec.State V} (hR : VR C w σ) {s m : Nat} {a : AVec V}
    (hσ : σ s = some a) {g : Grid} (hg1 : w.v s = some ⟨g, a.n⟩) (hg2 : VecOK C w.h g a) {ra : Option (AVec V)}
    (h2 : VecSpec.failReserve C a m n = some ra) :
    ∃ r', step.upd w s ((reserve C ⟨g, a.n⟩ m n u w.h).map (Option.map fun h => ((⟨g, a.n⟩ : SVec), h))) = .ok r' ∧
      VAgree C r' (ra.map fun a' => upd σ s (some a')) := by
  rcases reserve_fail (u := u) hL h1 dv hg2 hR.fresh h2 with ⟨rfl, k⟩ | ⟨rfl, h', k1, k2, k3, k4⟩
  · rw [k]; exact ⟨none, rfl, trivial⟩
  · rw [k1]
    refine ⟨_, rfl, ?_⟩
    show VR C ⟨h', upd w.v s (some ⟨g, a.n⟩)⟩ (upd σ s (some a))
    rw [upd_eq hσ, upd_eq hg1]
    exact VR.same hR k2 k3 k4

theorem vreserve_fail (hL : C.L.WF) (h1 : OneD C.tr) (dv : V) {w : VecWorld V} {σ : VecSpec.State V} (hR : VR C w σ) {s m : Nat}
    {r : Option (VecSpec.State V)} (hs : VecSpec.failOn σ s (fun a => VecSpec.failReserve C a m n) = some r) :
    ∃ r', step C w n u (.reserve s m) = .ok r' ∧ VAgree C r' r := by
  obtain ⟨a, ra, hσ, h2, rfl⟩ := failOn_some hs
  obtain ⟨g, hg1, hg2⟩ := hR.vec hσ
  simp only [step, step.withV, hg1]
  exact reserve_agree hL h1 dv hR hσ hg1 hg2 h2

theorem vresize_fail (hL : C.L.WF) (h1 : OneD C.tr) (dv : V) {w : VecWorld V} {σ : VecSpec.State V} (hR : VR C w σ) {s m : Nat}
    {r : Option (VecSpec.State V)} (hs : VecSpec.failOn σ s (fun a => if m > a.dim then VecSpec.failReserve C a m n else some none) = some r) :
    ∃ r', step C w n u (.resize s m) = .ok r' ∧ VAgree C r' r := by
  obtain ⟨a, ra, hσ, h2, rfl⟩ := failOn_some hs
  obtain ⟨g, hg1, hg2⟩ := hR.vec hσ
  simp only [step, step.withV, hg1]
  have hd : g.dim.x = a.dim := by rw [hg2.dim]
  rw [hd]
  split at h2
  · rename_i hm
    rw [if_pos hm]
    exact reserve_agree hL h1 dv hR hσ hg1 hg2 h2
  · rename_i hm
    rw [if_neg hm]
    cases h2
    exact ⟨none, rfl, trivial⟩

theorem loadList_length1 (L : Layout V) (e : Ext) (M num : Nat) : (loadList L e M [⟨0, 0, 0, num⟩] 0).length = num * (objs L).length := by
  simp [loadList, List.length_flatMap, Arr.objs_eq, Nat.mul_comm]

theorem vpush_fail (hL : C.L.WF) (h1 : OneD C.tr) (dv : V) {w : VecWorld V} {σ : VecSpec.State V} (hR : VR C w σ) {s : Nat} {c : Cell V}
    {r : Option (VecSpec.State V)} (hs : VecSpec.failOn σ s (fun a => VecSpec.failPush C dv a c n u) = some r) :
    ∃ r', step C w n u (.push s c) = .ok r' ∧ VAgree C r' r := by
  obtain ⟨a, ra, hσ, h2, rfl⟩ := failOn_some hs
  obtain ⟨g, hg1, hg2⟩ := hR.vec hσ
  simp only [step, step.withV, hg1]
  unfold VecSpec.failPush at h2
  split at h2
  · rename_i hk
    unfold push
    simp only [hg2.ex hk]
    by_cases hn : a.n = a.ext
    · rw [if_pos hn] at h2
      rw [if_pos hn]
      cases hsel : selectSizes C.tr ⟨grow a.n, 1, 1⟩ with
      | error e =>
        rw [hsel] at h2
        cases h2
        simp only [reserveOps, hsel, Nat.not_lt_zero, if_false]
        rw [reserve_throw hsel]
        exact ⟨none, rfl, trivial⟩
      | ok e =>
        rw [hsel] at h2
        cases hres : VecSpec.reserve C dv a (grow a.n) with
        | none => rw [hres] at h2; cases h2
        | some p =>
          obtain ⟨a', out⟩ := p
          rw [hres] at h2
          simp only at h2
          have hops : reserveOps C ⟨g, a.n⟩ (grow a.n) = VecSpec.built C (grow a.n) e.x + a.n * (objs C.L).length := by
            unfold reserveOps
            simp only [hsel]
            rw [loadList_length1, constructed_blank hsel]
            congr 1
            unfold VecSpec.built constructed
            by_cases hme : grow a.n = e.x
            · rw [if_pos hme, if_pos ⟨hme, rfl, rfl⟩]; rfl
            · rw [if_neg hme, if_neg (fun h => hme h.1), h1.idem hsel]
              simp only [constructList_length1]
              rw [Nat.add_mul]
          rw [hops]
          by_cases hlt : n < VecSpec.built C (grow a.n) e.x + a.n * (objs C.L).length
          · rw [if_pos hlt] at h2
            rw [if_pos hlt]
            exact reserve_agree hL h1 dv hR hσ hg1 hg2 h2
          · rw [if_neg hlt] at h2
            rw [if_neg hlt]
            rcases reserve_refines hL h1 dv hg2 hR.fresh hres with ⟨e', rfl, -, k⟩ | ⟨rfl, k1, k2, g', h', new, k3, k4, k5, k6⟩
            · exfalso
              unfold VecSpec.reserve at hres
              rw [hsel] at hres
              simp only at hres
              split at hres <;> cases hres
            · simp only [k3]
              rcases set_fail (N := a.n) hL k6 h2 with ⟨rfl, k⟩ | ⟨a2, id, b', rfl, j1, -, j2, j3, j4⟩
              · rw [k]; exact ⟨none, rfl, trivial⟩
              · rw [j3]
                refine ⟨_, rfl, ?_⟩
                rw [k4] at j2; cases j2
                show VR C ⟨h'.set new b', upd w.v s (some ⟨g', a.n⟩)⟩ (upd σ s (some a2))
                have e1 : a2.n = a.n := j1.trans k1
                rw [← e1]
                obtain ⟨id, -, q1, -⟩ := hg2.buf
                rw [q1] at k5
                exact hR.swapped (old := some id) (fun i hi => by cases hi; exact ⟨_, hg1, q1⟩)
                  (fun v i hv hi => by
                    rw [hg1] at hv; cases hv
                    have hi' : g.data = some i := hi
                    rw [q1] at hi'; exact hi') k4 (k5.set (fun i hi => by cases hi; exact hR.data_lt hg1 q1) b') j4
    · rw [if_neg hn] at h2
      rw [if_neg hn]
      rcases set_fail (N := a.n) hL hg2 h2 with ⟨rfl, k⟩ | ⟨a', id, b', rfl, k1, -, k2, k3, k4⟩
      · rw [k]; exact ⟨none, rfl, trivial⟩
      · rw [k3]
        refine ⟨_, rfl, ?_⟩
        show VR C ⟨_, upd w.v s (some ⟨g, a.n⟩)⟩ (upd σ s (some a'))
        rw [← k1]
        exact VR.updBlock hR hg1 k2 k4
  · cases h2

theorem vpoke_fail (hL : C.L.WF) {w : VecWorld V} {σ : VecSpec.State V} (hR : VR C w σ) {s r k : Nat} {x X : Int} {val : V}
    {ro : Option (VecSpec.State V)} (dv : V) (hs : VecSpec.fail C dv σ n u (.poke s x X r k val) = some ro) :
    ∃ r', step C w n u (.poke s x X r k val) = .ok r' ∧ VAgree C r' ro := by
  simp only [VecSpec.fail] at hs
  obtain ⟨a, ra, h1, h2, rfl⟩ := failOn_some hs
  obtain ⟨g, hg1, hg2⟩ := hR.vec h1
  simp only [step, step.withV, hg1]
  cases hm : C.L[r]? with
  | none => rw [hm] at h2; cases h2
  | some m =>
  cases hc : a.cells (x + X).toNat with
  | none => rw [hm, hc] at h2; cases h2
  | some c =>
    rw [hm, hc] at h2
    simp only at h2
    split at h2
    · rename_i hx
      obtain ⟨hx, hk⟩ := hx
      have hp := hg2.bnd _ (by rw [hc]; rfl)
      have e1 : ((accAt ⟨a.ext, 1, 1⟩ (genIndex ⟨a.ext, 1, 1⟩ x 0 0)).shift X 0 0).ext.prod = a.ext := prod1 _
      have hslot := userRef_slot hL (vshift (e := a.ext) (x := x) (X := X) (p := (x + X).toNat) (by omega)) hm hk
      rw [e1] at hslot
      have hw : List.Forall₂ (Writes C.L a.ext (fun b => b) (vcont a.cells) [(((x + X).toNat, r, k), val)])
          [.assign (((accAt ⟨a.ext, 1, 1⟩ (genIndex ⟨a.ext, 1, 1⟩ x 0 0)).shift X 0 0).userRef C.L r m k) m.ty val]
          [(((x + X).toNat, r, k), val)] := by
        refine .cons ⟨hp, vcont_isSome (by rw [hc]; rfl) r k, m, hm, hk, ?_, fun b _ _ _ => ?_⟩ .nil
        · show some _ = some _; rw [hslot]
        · show b.assign _ _ _ = _; rw [hslot]
      obtain ⟨oh, c1, c2, c3⟩ := callback_patch (ops := fun e =>
        [.assign (((accAt e (genIndex e x 0 0)).shift X 0 0).userRef C.L r m k) m.ty val]) hL hg2 hw (fun t ht => by
          rw [List.mem_singleton.1 ht]; rw [hc]; rfl) n u
      simp only [c1]
      have c2' : oh.isSome = throws C.L [(r, k)] n := c2
      rw [← c2'] at h2
      cases oh with
      | none => cases h2; exact ⟨none, rfl, trivial⟩
      | some h' =>
        cases h2
        obtain ⟨id, b', d1, rfl, d3⟩ := c3 h' rfl
        exact ⟨_, rfl, VR.updBlock hR hg1 d1 d3⟩
    · cases h2

theorem vget_fail (hL : C.L.WF) (h1 : OneD C.tr) {w : VecWorld V} {σ : VecSpec.State V} (hR : VR C w σ) {s i : Nat} {t : Cell V}
    {ro : Option (VecSpec.State V)} (dv : V) (hs : VecSpec.fail C dv σ n u (.get s i t) = some ro) :
    ∃ r', step C w n u (.get s i t) = .ok r' ∧ VAgree C r' ro := by
  simp only [VecSpec.fail] at hs
  obtain ⟨a, ra, hσ, h2, rfl⟩ := failOn_some hs
  obtain ⟨g, hg1, hg2⟩ := hR.vec hσ
  rw [Option.map_eq_some_iff] at h2
  obtain ⟨c, hc, rfl⟩ := h2
  simp only [step, VecWorld.step, VecWorld.withV, hg1, SVec.get, hg2.get hL hc t, Res.withVec, VecWorld.ofVS]
  unfold throws
  rw [Arr.objs_eq, List.getElem?_map]
  cases hq : (memKeys C.L)[n]? with
  | none => exact ⟨none, by simp only [Except.map], trivial⟩
  | some q =>
    obtain ⟨hm, -⟩ := mem_memKeys (List.mem_of_getElem? hq)
    simp only [Option.map_some, hm]
    cases htr : q.2.1.ty.triv with
    | true => exact ⟨none, by simp only [Except.map, if_true], trivial⟩
    | false =>
      refine ⟨some w, by simp only [Except.map]; rfl, ?_⟩
      show VR C w (upd σ s (some a))
      rw [upd_eq hσ]; exact hR

/-! ### Constructors -/

theorem vnew_fail {w : VecWorld V} {σ : VecSpec.State V} (hR : VR C w σ) {s m : Nat} {ro : Option (VecSpec.State V)} (dv : V)
    (hs : VecSpec.fail C dv σ n u (.new s m) = some ro) : ∃ r', step C w n u (.new s m) = .ok r' ∧ VAgree C r' ro := by
  simp only [VecSpec.fail] at hs
  cases hσ : σ s with
  | some a => rw [hσ] at hs; cases hs
  | none =>
    rw [hσ] at hs
    simp only [step, step.ctor, hR.absent hσ]
    cases hsel : selectSizes C.tr ⟨m, 1, 1⟩ with
    | error e =>
      rw [hsel] at hs; cases hs
      refine ⟨none, ?_, trivial⟩
      unfold newGrid Throwing.resize
      rw [if_neg (by simp [blank])]
      simp only [blank, Grid.destroyAndDeallocate, hsel]
      rfl
    | ok e =>
      rw [hsel] at hs
      simp only [VecSpec.failCtor] at hs
      split at hs
      · cases hs
      · rename_i ht
        cases hs
        rw [Bool.not_eq_true] at ht
        rw [newGrid_quiet ht]
        exact ⟨none, rfl, trivial⟩

theorem vnewFill_fail (hL : C.L.WF) (h1 : OneD C.tr) {w : VecWorld V} {σ : VecSpec.State V} (hR : VR C w σ) {s m : Nat} {c : Cell V}
    {ro : Option (VecSpec.State V)} (dv : V)
    (hs : VecSpec.fail C dv σ n u (.newFill s m c) = some ro) : ∃ r', step C w n u (.newFill s m c) = .ok r' ∧ VAgree C r' ro := by
  simp only [VecSpec.fail] at hs
  cases hσ : σ s with
  | some a => rw [hσ] at hs; cases hs
  | none =>
    rw [hσ] at hs
    simp only [step, step.ctor, hR.absent hσ]
    cases hsel : selectSizes C.tr ⟨m, 1, 1⟩ with
    | error e =>
      rw [hsel] at hs; cases hs
      refine ⟨none, ?_, trivial⟩
      unfold newFill
      simp only [constructed_blank_error hsel, Nat.not_lt_zero, if_false, new_throw hsel]
      rfl
    | ok e =>
      rw [hsel] at hs
      simp only at hs
      unfold newFill
      simp only [constructed_blank hsel]
      by_cases hlt : n < m * (objs C.L).length
      · rw [if_pos hlt] at hs
        rw [if_pos hlt]
        simp only [VecSpec.failCtor] at hs
        split at hs
        · cases hs
        · rename_i ht
          cases hs
          rw [Bool.not_eq_true] at ht
          rw [newGrid_quiet ht]
          exact ⟨none, rfl, trivial⟩
      · rw [if_neg hlt] at hs
        rw [if_neg hlt]
        obtain ⟨g, h', k1, k2, k3, k4⟩ := new_vec hL h1 dv hR.fresh hsel
        have hd : m ≤ e.x := (selectSizes_fits hsel).1
        simp only [k1]
        have hlive : ∀ i, i < m → ((VecSpec.fill m e.x (dfltCell C.L dv)).cells i).isSome = true := by
          intro i hi; simp [VecSpec.fill, hi]
        have hw : List.Forall₂ (Writes C.L e.x (fun b => b) (vcont (VecSpec.fill m e.x (dfltCell C.L dv)).cells)
            ((List.range m).flatMap fun i => asgStruct C.L i c)) (setList C.L ⟨e.x, 1, 1⟩ 0 [c] 0 0 0 m)
            ((List.range m).flatMap fun i => asgStruct C.L i c) := by
          rw [setList_all]
          refine forall2_flatMap' fun i hi => ?_
          have hi := List.mem_range.1 hi
          have hwr := setOps_writesK (src := fun b => b) hL (e := ⟨e.x, 1, 1⟩) (At1 e.x i) rfl (by rw [prod1]; omega)
            (c0 := vcont (VecSpec.fill m e.x (dfltCell C.L dv)).cells) ((List.range m).flatMap fun i => asgStruct C.L i c)
            (fun r k => vcont_isSome (hlive i hi) r k) c
          rw [prod1] at hwr
          exact hwr
        obtain ⟨oh, c1, c2, c3⟩ := callback_patch (ops := fun e => setList C.L e 0 [c] 0 0 0 m) hL k4 hw (fun t ht => by
          simp only [asgStruct, List.mem_flatMap, List.mem_map, List.mem_range] at ht
          obtain ⟨i, hi, q, -, rfl⟩ := ht
          exact hlive i hi) (n - m * (objs C.L).length) u
        rw [fill_keys] at c2
        simp only [c1]
        rw [← c2] at hs
        cases oh with
        | none => cases hs; exact ⟨none, rfl, trivial⟩
        | some h2 =>
          cases hs
          obtain ⟨id, b', d1, rfl, d3⟩ := c3 h2 rfl
          rw [k2] at d1; cases d1
          obtain ⟨h3, j1, j2, j3, j4⟩ := unwound_ok hL d3 k2 (k3.set (fun i hi => (nomatch hi)) b') hR.fresh
          simp only [j1]
          exact ⟨_, rfl, VR.same hR j2 j3 j4⟩

/-! ### Assignment -/

/-- `copy_in` between vectors of the same capacity. -/
theorem copyIn_fail (hL : C.L.WF) (dv : V) {h : Heap V} {g other : Grid} {a o : AVec V} (hg : VecOK C h g a)
    (ho : VecOK C h other o) (hdim : a.dim = o.dim) (hsame : g.data = other.data → a.cells = o.cells) (n : Nat) (u : Option V) :
    ∃ oh, Throwing.copyIn C g other n u h = .ok oh ∧ oh.isSome = throws C.L (byObj C.L o.dim) n ∧
      ∀ h', oh = some h' → ∃ id b', g.data = some id ∧ h' = h.set id b' ∧
        VecOK C h' g { a with cells := VecSpec.patch a.cells (ArrSpec.upTo (asgRow C.L 0 (VecSpec.row C dv o o.dim)) n u) } := by
  have hext : a.ext = o.ext := by
    have h1 := hg.sel
    rw [hdim, ho.sel] at h1
    injection h1 with h1; injection h1 with h1; exact h1.symm
  obtain ⟨id, b, q1, q2, _, q3⟩ := hg.buf
  obtain ⟨ido, bo, o3, o4, _, o7⟩ := ho.buf
  let new := VecSpec.row C dv o o.dim
  have hlen : new.length = o.dim := row_length C dv o o.dim
  have hle := hg.le
  have hlv : ∀ i, i < new.length → (a.cells i).isSome = true := fun i hi => hg.live i (by omega)
  have hw := copyList_writes1 (src := srcBlock h other.data g.data) hL (e := a.ext) new (by omega) (c0 := vcont a.cells)
    (fun r k i hi => vcont_isSome (hlv i hi) r k) (asgRow C.L 0 new) (fun bb c hv hR r m k i hi hm hk => by
      have hrow := row_get (C := C) (dv := dv) ho.live hi
      by_cases heq : other.data = g.data
      · have e1 : srcBlock h other.data g.data bb = bb := by
          simp only [srcBlock]
          rw [if_pos ⟨by rw [o3]; rfl, heq⟩]; rfl
        rw [e1]
        refine hv.read hL hm hk (by omega) ?_
        rcases hR i r k with hc | ⟨t, ht, t1, t2⟩
        · rw [hc]
          exact vcont_some (by rw [hsame heq.symm]; exact hrow) r k
        · rw [t2]
          simp only [asgRow, List.mem_flatMap, List.mem_map] at ht
          obtain ⟨p, hp, ⟨c', i'⟩, hi', rfl⟩ := ht
          simp only [Prod.mk.injEq] at t1
          obtain ⟨e1, e2, e3⟩ := t1
          have hg' := List.mem_zipIdx_iff_getElem?.1 hi'
          simp only at hg'
          rw [Nat.zero_add] at e1
          subst e1
          rw [List.getElem?_eq_getElem hi] at hg'
          cases hg'
          show some (_) = some _
          simp only [e2, e3]
      · have e1 : srcBlock h other.data g.data bb = bo := by
          simp only [srcBlock]
          rw [if_neg (fun h => heq h.2), o3]
          simp [o4]
        rw [e1, hext]
        exact o7.read hL hm hk (by omega) (vcont_some hrow r k))
  rw [hlen] at hw
  obtain ⟨oh, c1, c2, c3⟩ := onBuffer_patch hL hg hw (fun t ht => by
    obtain ⟨i, hi, p1, -⟩ := Arr.mem_asgRow ht
    exact hlv _ (by omega)) n u
  rw [Arr.asgRow_keys, hlen] at c2
  refine ⟨oh, ?_, c2, c3⟩
  have hdims : other.dim = g.dim := by rw [ho.dim, hg.dim, hdim]
  unfold Throwing.copyIn
  rw [hdims, hg.dim, hg.sel]
  rw [← hdim, ] at c1
  simp only [o3, Option.map_some, o4, ne_eq, not_true_eq_false, or_self, if_false]
  rw [o3] at c1
  rw [c1]
  cases C.asym <;> rfl

theorem constructed_same {g : Grid} {d : Ext} (h : g.dim = d) : constructed C g d = 0 := by
  unfold constructed
  rw [if_pos (by rw [h]; exact ⟨rfl, rfl, rfl⟩)]

theorem constructed_diff {g : Grid} {m m' : Nat} {e : Ext} (h : g.dim = ⟨m', 1, 1⟩) (hne : m' ≠ m) (hs : selectSizes C.tr ⟨m, 1, 1⟩ = .ok e) :
    constructed C g ⟨m, 1, 1⟩ = m * (objs C.L).length := by
  unfold constructed
  rw [if_neg (by rw [h]; exact fun h => hne h.1), hs]
  exact constructList_length1 _ _ _

theorem vassign_fail (hL : C.L.WF) {w : VecWorld V} {σ : VecSpec.State V} (hR : VR C w σ) {s t : Nat} {ro : Option (VecSpec.State V)} (dv : V)
    (hs : VecSpec.fail C dv σ n u (.assign s t) = some ro) : ∃ r', step C w n u (.assign s t) = .ok r' ∧ VAgree C r' ro := by
  simp only [VecSpec.fail] at hs
  cases hσs : σ s with
  | none => rw [hσs] at hs; cases hs
  | some a =>
  cases hσt : σ t with
  | none => rw [hσs, hσt] at hs; cases hs
  | some o =>
  rw [hσs, hσt] at hs
  simp only at hs
  obtain ⟨g, hg1, hg2⟩ := hR.vec hσs
  obtain ⟨og, ho1, ho2⟩ := hR.vec hσt
  simp only [step, step.withV, hg1, ho1]
  unfold Throwing.assign
  by_cases hdim : a.dim = o.dim
  · rw [if_pos hdim] at hs
    have hd : g.dim = og.dim := by rw [hg2.dim, ho2.dim, hdim]
    rw [constructed_same hd]
    have hsame := resize_same (C := C) (h := w.h) (g := g) (d := og.dim) hd
    simp only [Nat.not_lt_zero, if_false, hsame, Nat.sub_zero]
    obtain ⟨oh, c1, c2, c3⟩ := copyIn_fail hL dv hg2 ho2 hdim (fun h => by
      obtain ⟨id, b, q1, _⟩ := hg2.buf
      have hst : s = t := hR.own s t _ _ id hg1 ho1 q1 (by rw [← h]; exact q1)
      subst hst
      rw [hσs] at hσt; cases hσt; rfl) n u
    rw [c1]
    rw [← c2] at hs
    cases oh with
    | none => cases hs; exact ⟨none, rfl, trivial⟩
    | some h' =>
      cases hs
      obtain ⟨id, b', d1, rfl, d3⟩ := c3 h' rfl
      exact ⟨_, rfl, VR.updBlock hR hg1 d1 d3⟩
  · rw [if_neg hdim] at hs
    have hst : s ≠ t := by rintro rfl; rw [hσs] at hσt; cases hσt; exact hdim rfl
    rw [ho2.dim, constructed_diff hg2.dim hdim ho2.sel]
    obtain ⟨id, h0, d1, d2, d3, d4, d5, bc, d6, d7⟩ := hg2.destroy hL
    obtain ⟨ido, bo, q1, q2, _⟩ := ho2.buf
    have hido := hR.data_lt ho1 q1
    have hidg := hR.data_lt hg1 d1
    have hne : ido ≠ id := by
      rintro rfl
      exact hst (hR.own s t _ _ _ hg1 ho1 d1 q1)
    let g2 : Grid := { g with dim := og.dim, ex := some o.ext, ey := some 1, ez := some 1,
                              bs := some (byteSizeOf C.L ⟨o.ext, 1, 1⟩), data := some h0.next }
    obtain ⟨b1, k1, k2⟩ := grid_init (h := h0) hL ho2.sel dv g2 ho2.dim rfl rfl (some ⟨o.ext, 1, 1⟩)
      (fun e' he => by cases he; exact ⟨rfl, rfl, rfl, rfl⟩)
    have v1 := VecOK.ofGrid (n := a.n) k2 ho2.sel
    have ho3 : VecOK C ((h0.alloc (byteSizeOf C.L ⟨o.ext, 1, 1⟩)).2.set h0.next b1) og o := by
      refine ho2.frame (fun i hi => ?_)
      rw [q1] at hi; cases hi
      rw [Heap.blk_set_ne _ _ (by omega)]
      simp only [Heap.alloc]
      rw [if_neg (by omega)]
      exact d5 _ hne
    have hne' : ¬ (g.dim.x = og.dim.x ∧ g.dim.y = og.dim.y ∧ g.dim.z = og.dim.z) := by
      rw [hg2.dim, ho2.dim]; intro h; exact hdim h.1
    have hres : g.resize C ⟨o.dim, 1, 1⟩ w.h =
        .ok () (g2, (h0.alloc (byteSizeOf C.L ⟨o.ext, 1, 1⟩)).2.set h0.next b1) := by
      rw [← ho2.dim]
      unfold Grid.resize
      rw [if_neg hne']
      have hsel : selectSizes C.tr og.dim = .ok ⟨o.ext, 1, 1⟩ := by rw [ho2.dim]; exact ho2.sel
      simp only [d2, Res.withGrid, Res.bind, hsel]
      have : (h0.alloc (byteSizeOf C.L ⟨o.ext, 1, 1⟩)).1 = h0.next := rfl
      simp only [this]
      show Res.withGrid g2 (g2.init C _) = _
      rw [k1]; rfl
    by_cases hlt : n < o.dim * (objs C.L).length
    · rw [if_pos hlt] at hs
      rw [if_pos hlt]
      simp only [VecSpec.failCtor] at hs
      split at hs
      · cases hs
      · rename_i ht
        cases hs
        rw [Bool.not_eq_true] at ht
        rw [resize_quiet hres ht]
        exact ⟨none, rfl, trivial⟩
    · rw [if_neg hlt] at hs
      rw [if_neg hlt]
      simp only [hres]
      obtain ⟨oh, c1, c2, c3⟩ := copyIn_fail hL dv v1 ho3 rfl (fun h => by
        have : og.data = some h0.next := h.symm
        rw [q1] at this; cases this; omega) (n - o.dim * (objs C.L).length) u
      rw [c1]
      rw [← c2] at hs
      cases oh with
      | none => cases hs; exact ⟨none, rfl, trivial⟩
      | some h' =>
        cases hs
        obtain ⟨id2, b2, j1, rfl, j3⟩ := c3 h' rfl
        have : id2 = h0.next := by
          have : some h0.next = some id2 := j1
          cases this; rfl
        subst this
        refine ⟨_, rfl, ?_⟩
        refine hR.swapped (old := some id) (new := h0.next)
          (a := ⟨o.dim, o.ext, true, a.n, VecSpec.patch (fun i => if i < o.dim then some (dfltCell C.L dv) else none)
            (ArrSpec.upTo (asgRow C.L 0 (VecSpec.row C dv o o.dim)) (n - o.dim * (objs C.L).length) u)⟩)
          (fun i hi => by cases hi; exact ⟨_, hg1, d1⟩)
          (fun v i hv hi => by
            rw [hg1] at hv; cases hv
            have hi' : g.data = some i := hi
            rw [d1] at hi'; exact hi') (g' := g2) rfl ?_ j3
        refine ⟨by omega, by simp only [Heap.set, Heap.alloc]; omega, fun i hi => ?_, fun i hi hi' => ?_, fun i hi hi' => ?_,
            fun hc b3 hb3 => ?_⟩
        · cases hi
          rw [Heap.blk_set_ne _ _ (by omega), Heap.blk_set_ne _ _ (by omega)]
          simp only [Heap.alloc]
          rw [if_neg (by omega)]; exact d4
        · rw [Heap.blk_set_ne _ _ (by omega), Heap.blk_set_ne _ _ (by omega)]
          simp only [Heap.alloc]
          rw [if_neg (by omega)]; exact d5 i (fun h => hi (by rw [h]))
        · rw [Heap.blk_set_ne _ _ hi', Heap.blk_set_ne _ _ hi']
          simp only [Heap.alloc]
          rw [if_neg hi', d5 i (by omega)]; exact hR.fresh i hi
        · have hb4 : b3 ∈ h0.freed := hb3
          rw [d7] at hb4
          rcases List.mem_append.1 hb4 with h | h
          · exact hc b3 h
          · rw [List.mem_singleton.1 h]; exact d6

theorem vcopy_fail (hL : C.L.WF) {w : VecWorld V} {σ : VecSpec.State V} (hR : VR C w σ) {s t : Nat} {ro : Option (VecSpec.State V)} (dv : V)
    (hs : VecSpec.fail C dv σ n u (.copy s t) = some ro) : ∃ r', step C w n u (.copy s t) = .ok r' ∧ VAgree C r' ro := by
  simp only [VecSpec.fail] at hs
  cases hσs : σ s with
  | some _ => rw [hσs] at hs; cases hs
  | none =>
  cases hσt : σ t with
  | none => rw [hσs, hσt] at hs; cases hs
  | some o =>
  rw [hσs, hσt] at hs
  simp only at hs
  split at hs
  · cases hs
  · rename_i ht
    cases hs
    rw [Bool.not_eq_true] at ht
    obtain ⟨og, ho1, ho2⟩ := hR.vec hσt
    have hn := hR.absent hσs
    simp only [step, step.withV, ho1, step.ctor, hn]
    unfold Throwing.copyCtor
    obtain ⟨id, b, q1, q2, _⟩ := ho2.buf
    have hid_lt := hR.data_lt ho1 q1
    let g : Grid := ⟨og.dim, none, none, none, some (byteSizeOf C.L ⟨o.ext, 1, 1⟩), some w.h.next⟩
    obtain ⟨b1, k1, k2⟩ := grid_init (h := w.h) hL ho2.sel dv g ho2.dim rfl rfl none (fun _ h => by cases h)
    have ho3 := ho2.frame (h' := (w.h.alloc (byteSizeOf C.L ⟨o.ext, 1, 1⟩)).2.set w.h.next b1) (fun i hi => by
      rw [q1] at hi; cases hi
      rw [Heap.blk_set_ne _ _ (by omega)]
      simp only [Heap.alloc]
      rw [if_neg (by omega)])
    have v1 := VecOK.ofGrid (n := o.n) k2 ho2.sel
    obtain ⟨oh, c1, c2, -⟩ := copyIn_fail hL dv v1 ho3 rfl (fun h => by
      have : og.data = some w.h.next := h.symm
      rw [q1] at this; cases this; omega) (n - o.dim * (objs C.L).length) u
    have hsel : selectSizes C.tr og.dim = .ok ⟨o.ext, 1, 1⟩ := by rw [ho2.dim]; exact ho2.sel
    have e1 : (w.h.alloc (byteSizeOf C.L ⟨o.ext, 1, 1⟩)).1 = w.h.next := rfl
    have hcl : (constructList C.L og.dim ⟨o.ext, 1, 1⟩).length = o.dim * (objs C.L).length := by
      rw [ho2.dim]; exact constructList_length1 _ _ _
    simp only [ho2.bs, e1, hsel, hcl]
    by_cases hlt : n < o.dim * (objs C.L).length
    · rw [if_pos hlt]
      rw [throws_append_left (by rw [byStruct_length]; exact hlt)] at ht
      simp only [onBuffer, Heap.alloc, if_true]
      rw [ho2.dim, upTo_quiet (constructList_kind1 C.L o.dim _) ht]
      exact ⟨none, rfl, trivial⟩
    · rw [if_neg hlt]
      rw [throws_append_right (by rw [byStruct_length]; omega), byStruct_length] at ht
      rw [ht] at c2
      have k1' : (⟨og.dim, none, none, none, some (byteSizeOf C.L ⟨o.ext, 1, 1⟩), some w.h.next⟩ : Grid).init C
          (w.h.alloc (byteSizeOf C.L ⟨o.ext, 1, 1⟩)).2 = _ := k1
      rw [k1']
      cases oh with
      | some _ => cases c2
      | none =>
        have c1' : Throwing.copyIn C ⟨og.dim, none, none, none, some (byteSizeOf C.L ⟨o.ext, 1, 1⟩), some w.h.next⟩ og
          (n - o.dim * (objs C.L).length) u ((w.h.alloc (byteSizeOf C.L ⟨o.ext, 1, 1⟩)).2.set w.h.next b1) = _ := c1
        simp only [c1']
        exact ⟨none, rfl, trivial⟩

/-! ### All operations -/

/-- A step in which a member throws. -/
theorem vfail_refines (hL : C.L.WF) (h1 : OneD C.tr) (dv : V) {w : VecWorld V} {σ : VecSpec.State V} (hR : VR C w σ) (op : VecOp V) (n : Nat)
    (u : Option V) {r : Option (VecSpec.State V)} (hs : VecSpec.fail C dv σ n u op = some r) :
    ∃ r', step C w n u op = .ok r' ∧ VAgree C r' r := by
  cases op with
  | new s m => exact vnew_fail hR dv hs
  | newFill s m c => exact vnewFill_fail hL h1 hR dv hs
  | copy s t => exact vcopy_fail hL hR dv hs
  | assign s t => exact vassign_fail hL hR dv hs
  | set s i c => exact vset_fail hL hR hs
  | get s i t => exact vget_fail hL h1 hR dv hs
  | push s c => exact vpush_fail hL h1 dv hR hs
  | pop s td => exact vpop_fail hL hR hs
  | reserve s m => exact vreserve_fail hL h1 dv hR hs
  | resize s m => exact vresize_fail hL h1 dv hR hs
  | poke s x X r k val => exact vpoke_fail hL hR dv hs
  | destroy s => cases hs; exact ⟨none, rfl, trivial⟩
  | clear s => cases hs; exact ⟨none, rfl, trivial⟩
  | size s => cases hs; exact ⟨none, rfl, trivial⟩
  | capacity s => cases hs; exact ⟨none, rfl, trivial⟩
  | empty s => cases hs; exact ⟨none, rfl, trivial⟩
  | peek s x X r k => cases hs; exact ⟨none, rfl, trivial⟩

end Vec
end Throwing
end LFA
