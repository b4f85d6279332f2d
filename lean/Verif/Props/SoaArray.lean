import Verif.SoaArrayProof
import Verif.Demo

/-
  C23–C27, C51, C52: soa_array.
-/
set_option linter.unusedSectionVars false
namespace LFA.Props
open LFA

section
variable {V : Type} [DecidableEq V] {L : Layout V}

/-! ### Vocabulary -/

/-- The state `w` is reached by a program which respects the contracts of soa_array. -/
def ArrValid (L : Layout V) (w : ArrWorld V) : Prop :=
  ∃ ops σ outs, ArrSpec.run L ArrSpec.start ops = some (σ, outs) ∧ ArrWorld.init.run L ops = .ok (w, outs)

/-- Array `s` reports capacity `N` and `l.length` elements, and reading element `i` (into any struct `t`) yields `l[i]`. -/
structure ListIs (L : Layout V) (w : ArrWorld V) (s N : Nat) (l : List (Cell V)) : Prop where
  cap : w.step L (.capacity s) = .ok (w, .nat N)
  size : w.step L (.size s) = .ok (w, .nat l.length)
  get : ∀ (i : Nat) (c : Cell V), l[i]? = some c → ∀ t, w.step L (.get s (i : Nat) t) = .ok (w, .cells [overlay L c t])

theorem ArrValid.refines (hL : L.WF) (dv : V) {w : ArrWorld V} (h : ArrValid L w) : ∃ σ, ArrR L w σ := by
  obtain ⟨ops, σ, outs, h1, h2⟩ := h
  obtain ⟨w', e, hR⟩ := arr_run_refines hL dv ops (ArrR.init L) h1
  rw [h2] at e
  injection e with e; injection e with e _
  exact ⟨σ, e ▸ hR⟩

theorem ListIs.of_rep (hL : L.WF) {w : ArrWorld V} {s N : Nat} {l : List (Cell V)} {a : SArr V} (ha : w.a s = some a)
    (h : Rep L a N l) : ListIs L w s N l := by
  refine ⟨by simp only [ArrWorld.step, ArrWorld.withA, ha, h.cap], by simp only [ArrWorld.step, ArrWorld.withA, ha, h.len],
    fun i c hc t => ?_⟩
  simp only [ArrWorld.step, ArrWorld.withA, ha, h.getAt hL hc t, ArrWorld.ro]

theorem ListIs.exists {w : ArrWorld V} {s N : Nat} {l : List (Cell V)} (h : ListIs L w s N l) :
    ∃ a, w.a s = some a ∧ a.N = N ∧ a.n = l.length := by
  have h1 := h.cap
  have h2 := h.size
  simp only [ArrWorld.step, ArrWorld.withA] at h1 h2
  cases ha : w.a s with
  | none => rw [ha] at h1; cases h1
  | some a =>
    rw [ha] at h1 h2
    simp only [Except.ok.injEq, Prod.mk.injEq, true_and, ArrOut.nat.injEq] at h1 h2
    exact ⟨a, rfl, h1, h2⟩

/-- Two descriptions of the same array agree on everything that can be observed. -/
theorem ListIs.agree {w : ArrWorld V} {s N N' : Nat} {l l' : List (Cell V)} (h : ListIs L w s N l) (h' : ListIs L w s N' l') :
    N = N' ∧ l.length = l'.length ∧
      ∀ (i : Nat) (c c' : Cell V), l[i]? = some c → l'[i]? = some c' → ∀ t, overlay L c t = overlay L c' t := by
  obtain ⟨a, ha, h1, h2⟩ := h.exists
  obtain ⟨a', ha', h1', h2'⟩ := h'.exists
  rw [ha] at ha'; cases ha'
  refine ⟨h1.symm.trans h1', h2.symm.trans h2', fun i c c' hc hc' t => ?_⟩
  have e := h.get i c hc t
  rw [h'.get i c' hc' t] at e
  simp only [Except.ok.injEq, Prod.mk.injEq, true_and, ArrOut.cells.injEq, List.cons.injEq, and_true] at e
  exact e.symm

theorem ListIs.congr {w : ArrWorld V} {s N : Nat} {l l' : List (Cell V)} (h : ListIs L w s N l) (hlen : l.length = l'.length)
    (hag : ∀ (i : Nat) (c c' : Cell V), l[i]? = some c → l'[i]? = some c' → ∀ t, overlay L c t = overlay L c' t) :
    ListIs L w s N l' := by
  refine ⟨h.cap, by rw [← hlen]; exact h.size, fun i c' hc' t => ?_⟩
  have hlt : i < l.length := by
    rw [hlen]
    rcases Nat.lt_or_ge i l'.length with h | h
    · exact h
    · rw [List.getElem?_eq_none h] at hc'; cases hc'
  have hc : l[i]? = some l[i] := List.getElem?_eq_getElem hlt
  rw [h.get i _ hc t, hag i _ c' hc hc' t]

theorem upd_eq_self {w : ArrWorld V} {s : Nat} {a : SArr V} (ha : w.a s = some a) :
    (⟨ArrWorld.upd w.a s (some a), w.gone⟩ : ArrWorld V) = w := by
  have : ArrWorld.upd w.a s (some a) = w.a := by
    funext i; by_cases e : i = s
    · subst e; simp [ArrWorld.upd, ha]
    · simp [ArrWorld.upd, e]
  rw [this]

/-! ### A concrete program -/

/-- Two arrays with capacities 4 and 2, over a struct with a double, a float[3] and a string. -/
def demoArr : List (ArrOp Int) :=
  [.new 0 4 1 demoCell, .push 0 (fun _ _ => 5), .poke 0 1 1 2 77, .new 1 2 0 demoCell, .assign 1 0 false,
   .push 1 demoCell, .load 0 1 0 1 2, .iter 0 (fun _ _ => 0)]

theorem demoArr_spec : ∃ σ outs, ArrSpec.run demoL ArrSpec.start demoArr = some (σ, outs) := ⟨_, _, rfl⟩

/-! ### C23 -/

/-- C23: every program which respects the contracts (in-range indices, existing objects, …) runs without undefined behaviour
    and observes exactly what it would observe with lists of bounded length (`ArrSpec.step`). -/
theorem C23_history (hL : L.WF) (dv : V) {ops : List (ArrOp V)} {σ : ArrSpec.State V} {outs : List (ArrOut V)}
    (h : ArrSpec.run L ArrSpec.start ops = some (σ, outs)) :
    ∃ w, ArrWorld.init.run L ops = .ok (w, outs) := by
  obtain ⟨w, h1, _⟩ := arr_run_refines hL dv ops (ArrR.init L) h
  exact ⟨w, h1⟩

example : ∃ w outs, ArrWorld.init.run demoL demoArr = .ok (w, outs) := by
  obtain ⟨σ, outs, h⟩ := demoArr_spec
  obtain ⟨w, h⟩ := C23_history demoL_WF 0 h
  exact ⟨w, outs, h⟩

theorem demoArr_valid : ∃ w, ArrValid demoL w ∧ ∃ l, ListIs demoL w 0 4 l ∧ l.length = 3 := by
  obtain ⟨w, h1, hR⟩ := arr_run_refines demoL_WF 0 demoArr (ArrR.init demoL) (σ' := _) (outs := _) rfl
  refine ⟨w, ⟨_, _, _, rfl, h1⟩, ?_⟩
  obtain ⟨a, ha, hrep⟩ := hR.arr (s := 0) rfl
  exact ⟨_, ListIs.of_rep demoL_WF ha hrep, rfl⟩

/-- C23, at any time: size and capacity are reported, size ≤ capacity, and every element can be read. -/
theorem C23_readable (hL : L.WF) (dv : V) {w : ArrWorld V} (hV : ArrValid L w) {s : Nat} {a : SArr V} (ha : w.a s = some a) :
    ∃ N l, l.length ≤ N ∧ ListIs L w s N l := by
  obtain ⟨σ, hR⟩ := hV.refines hL dv
  cases hs : σ s with
  | none => rw [hR.absent hs] at ha; cases ha
  | some p =>
    obtain ⟨a', ha', hrep⟩ := hR.arr hs
    exact ⟨p.1, p.2, hrep.fits, ListIs.of_rep hL ha' hrep⟩

example : ∃ w : ArrWorld Int, ∃ N l, l.length ≤ N ∧ ListIs demoL w 0 N l := by
  obtain ⟨w, hV, l, hl, _⟩ := demoArr_valid
  obtain ⟨a, ha, _⟩ := hl.exists
  exact ⟨w, C23_readable demoL_WF 0 hV ha⟩

/-- The array behind an observation of a valid state. -/
theorem ListIs.rep (hL : L.WF) (dv : V) {w : ArrWorld V} (hV : ArrValid L w) {s N : Nat} {l : List (Cell V)}
    (h : ListIs L w s N l) : ∃ σ a l', ArrR L w σ ∧ σ s = some (N, l') ∧ w.a s = some a ∧ Rep L a N l' ∧
      l.length = l'.length ∧ (∀ (i : Nat) (c c' : Cell V), l[i]? = some c → l'[i]? = some c' → ∀ t, overlay L c t = overlay L c' t) := by
  obtain ⟨σ, hR⟩ := hV.refines hL dv
  obtain ⟨a, ha, _⟩ := h.exists
  cases hs : σ s with
  | none => rw [hR.absent hs] at ha; cases ha
  | some p =>
    obtain ⟨N', l'⟩ := p
    obtain ⟨a', ha', hrep⟩ := hR.arr hs
    obtain ⟨e1, e2, e3⟩ := h.agree (ListIs.of_rep hL ha' hrep)
    subst e1
    exact ⟨σ, a', l', hR, hs, ha', hrep, e2, e3⟩

/-- Elementwise agreement is preserved by list operations. -/
theorem agree_append {l l' k k' : List (Cell V)} (hl : l.length = l'.length) (hk : k.length = k'.length)
    (h1 : ∀ (i : Nat) (c c' : Cell V), l[i]? = some c → l'[i]? = some c' → ∀ t, overlay L c t = overlay L c' t)
    (h2 : ∀ (i : Nat) (c c' : Cell V), k[i]? = some c → k'[i]? = some c' → ∀ t, overlay L c t = overlay L c' t) :
    ∀ (i : Nat) (c c' : Cell V), (l ++ k)[i]? = some c → (l' ++ k')[i]? = some c' → ∀ t, overlay L c t = overlay L c' t := by
  intro i c c' hc hc'
  by_cases hi : i < l.length
  · rw [List.getElem?_append_left hi] at hc
    rw [List.getElem?_append_left (by omega)] at hc'
    exact h1 i c c' hc hc'
  · rw [List.getElem?_append_right (by omega)] at hc
    rw [List.getElem?_append_right (by omega)] at hc'
    rw [hl] at hc
    exact h2 _ c c' hc hc'

theorem agree_refl (l : List (Cell V)) :
    ∀ (i : Nat) (c c' : Cell V), l[i]? = some c → l[i]? = some c' → ∀ t, overlay L c t = overlay L c' t := by
  intro i c c' h h' t; rw [h] at h'; cases h'; rfl

/-- C23, `push_back` on an array which is not full appends the struct; other arrays are not affected. -/
theorem C23_push_back (hL : L.WF) (dv : V) {w : ArrWorld V} (hV : ArrValid L w) {s N : Nat} {l : List (Cell V)}
    (h : ListIs L w s N l) (hlt : l.length < N) (c : Cell V) :
    ∃ w', w.step L (.push s c) = .ok (w', .unit) ∧ ListIs L w' s N (l ++ [c]) ∧ ∀ t, t ≠ s → w'.a t = w.a t := by
  obtain ⟨σ, a, l', hR, hs, ha, hrep, hlen, hag⟩ := h.rep hL dv hV
  obtain ⟨a', d1, d2⟩ := hrep.pushBack hL (by omega) c
  refine ⟨⟨ArrWorld.upd w.a s (some a'), w.gone⟩, ?_, ?_, fun t ht => by simp [ArrWorld.upd, ht]⟩
  · simp only [ArrWorld.step, ArrWorld.withA, ha, d1, ArrWorld.modify]
  · refine (ListIs.of_rep hL (s := s) (by simp [ArrWorld.upd]) d2).congr (by simp [hlen]) ?_
    exact agree_append hlen.symm rfl (fun i c c' h h' t => (hag i c' c h' h t).symm) (agree_refl _)

example : ∃ (w w' : ArrWorld Int) (l : List (Cell Int)), w.step demoL (.push 0 demoCell) = .ok (w', .unit) ∧
    ListIs demoL w' 0 4 (l ++ [demoCell]) := by
  obtain ⟨w, hV, l, hl, h3⟩ := demoArr_valid
  obtain ⟨w', h1, h2, _⟩ := C23_push_back demoL_WF 0 hV hl (by omega) demoCell
  exact ⟨w, w', l, h1, h2⟩

/-! ### C24 -/

/-- C24, full: `push_back`/`<<` throws out_of_range and nothing at all changes. -/
theorem C24_push_full {w : ArrWorld V} {s N : Nat} {l : List (Cell V)} (h : ListIs L w s N l) (hfull : N ≤ l.length)
    (c : Cell V) : w.step L (.push s c) = .ok (w, .threw (.outOfRange "capacity exceeded")) := by
  obtain ⟨a, ha, h1, h2⟩ := h.exists
  have : a.n ≥ a.N := by omega
  simp only [ArrWorld.step, ArrWorld.withA, ha, SArr.push, if_pos this, ArrWorld.modify, upd_eq_self ha]

/-- C24, empty: `pop_back` throws out_of_range and nothing at all changes. -/
theorem C24_pop_empty {w : ArrWorld V} {s N : Nat} (h : ListIs L w s N ([] : List (Cell V))) :
    w.step L (.pop s) = .ok (w, .threw (.outOfRange "soa_array is already empty")) := by
  obtain ⟨a, ha, h1, h2⟩ := h.exists
  have : a.n = 0 := h2
  simp only [ArrWorld.step, ArrWorld.withA, ha, SArr.pop, if_pos this, ArrWorld.modify, upd_eq_self ha]

/-- C24, `load` beyond the capacity throws out_of_range and nothing at all changes (unless the `size_t` sum wraps, see
    `C24_false`). -/
theorem C24_load_partial {w : ArrWorld V} {s t N M j num off : Nat} {l k : List (Cell V)} (h : ListIs L w s N l)
    (h' : ListIs L w t M k) (hbig : N < num + off) (hw : num + off < 2 ^ 64) :
    w.step L (.load s t j num off) =
      .ok (w, .threw (.outOfRange "insufficient capacity for assignment (other soa_array too large)")) := by
  obtain ⟨a, ha, h1, h2⟩ := h.exists
  obtain ⟨o, ho, h1', h2'⟩ := h'.exists
  have : max a.n ((num + off) % 2 ^ 64) > a.N := by rw [Nat.mod_eq_of_lt hw]; omega
  simp only [ArrWorld.step, ArrWorld.withA, ha, ho, SArr.load, if_pos this, ArrWorld.modify, upd_eq_self ha]
  rfl

/-- C24, the exact condition on which `load` throws: the sum is the one of `size_t`. If it throws, nothing at all changes. -/
theorem C24_load_iff {w : ArrWorld V} {s t N M j num off : Nat} {l k : List (Cell V)} (h : ListIs L w s N l)
    (h' : ListIs L w t M k) (hlN : l.length ≤ N) :
    ((∃ w' e, w.step L (.load s t j num off) = .ok (w', .threw e)) ↔ N < (num + off) % 2 ^ 64) ∧
      ∀ w' e, w.step L (.load s t j num off) = .ok (w', .threw e) → w' = w := by
  obtain ⟨a, ha, h1, h2⟩ := h.exists
  obtain ⟨o, ho, h1', h2'⟩ := h'.exists
  have hfw : ∀ w' e, w.step L (.load s t j num off) = .ok (w', .threw e) → N < (num + off) % 2 ^ 64 := by
    intro w' e he
    by_contra hno
    have hno' : ¬ max a.n ((num + off) % 2 ^ 64) > a.N := by omega
    simp only [ArrWorld.step, ArrWorld.withA, ha, ho, SArr.load, if_neg hno'] at he
    split at he <;> cases he
  have hbw : N < (num + off) % 2 ^ 64 → w.step L (.load s t j num off) =
      .ok (w, .threw (.outOfRange "insufficient capacity for assignment (other soa_array too large)")) := by
    intro hbig
    have : max a.n ((num + off) % 2 ^ 64) > a.N := by omega
    simp only [ArrWorld.step, ArrWorld.withA, ha, ho, SArr.load, if_pos this, ArrWorld.modify, upd_eq_self ha]
    rfl
  refine ⟨⟨fun ⟨w', e, he⟩ => hfw w' e he, fun hb => ⟨w, _, hbw hb⟩⟩, fun w' e he => ?_⟩
  rw [hbw (hfw w' e he)] at he
  injection he with he
  injection he with he _
  exact he.symm

/-- C24, appending beyond the capacity throws out_of_range and nothing at all changes. -/
theorem C24_append_partial {w : ArrWorld V} {s t N M j num : Nat} {l k : List (Cell V)} (h : ListIs L w s N l)
    (h' : ListIs L w t M k) (hbig : N < num + l.length) (hw : num + l.length < 2 ^ 64) :
    w.step L (.append s t j num) =
      .ok (w, .threw (.outOfRange "insufficient capacity for assignment (other soa_array too large)")) := by
  have := C24_load_partial (j := j) h h' hbig hw
  obtain ⟨a, ha, h1, h2⟩ := h.exists
  rw [← this]
  simp only [ArrWorld.step, ArrWorld.withA, ha, h2]

/-- C24, assigning an array which is too large throws out_of_range and nothing at all changes. -/
theorem C24_assign {w : ArrWorld V} {s t N M : Nat} {l k : List (Cell V)} (h : ListIs L w s N l)
    (h' : ListIs L w t M k) (hbig : N < k.length) (hM : k.length ≤ M) (cst : Bool) :
    w.step L (.assign s t cst) =
      .ok (w, .threw (.outOfRange "insufficient capacity for assignment (other soa_array too large)")) := by
  obtain ⟨a, ha, h1, h2⟩ := h.exists
  obtain ⟨o, ho, h1', h2'⟩ := h'.exists
  have hb : ¬ (cst = true ∧ a.N = o.N) := by omega
  have : o.n > a.N := by omega
  simp only [ArrWorld.step, ArrWorld.withA, ha, ho, if_neg hb, SArr.copyIn, if_pos this, ArrWorld.modify, upd_eq_self ha]
  rfl

/-- C24, constructing an array from one which is too large throws out_of_range; no array is created or changed. -/
theorem C24_copy (hL : L.WF) (dv : V) {w : ArrWorld V} {s t N M : Nat} {k : List (Cell V)} (hs : w.a s = none)
    (h' : ListIs L w t M k) (hbig : N < k.length) (hM : k.length ≤ M) (cst : Bool) :
    ∃ w', w.step L (.copy s N t cst) =
      .ok (w', .threw (.outOfRange "insufficient capacity for assignment (other soa_array too large)")) ∧ w'.a = w.a := by
  obtain ⟨o, ho, h1', h2'⟩ := h'.exists
  have hb : ¬ (cst = true ∧ N = o.N) := by omega
  have : o.n > N := by omega
  obtain ⟨b, c1, c2, c3⟩ := SArr.constructAll_ok hL dv N
  refine ⟨⟨w.a, b :: w.gone⟩, ?_, rfl⟩
  simp only [ArrWorld.step, hs, ArrWorld.withA, ho, if_neg hb, c1, SArr.copyIn, if_pos this]
  rfl

example : ∃ w : ArrWorld Int, ∃ l, ListIs demoL w 0 1 l ∧
    w.step demoL (.push 0 demoCell) = .ok (w, .threw (.outOfRange "capacity exceeded")) := by
  obtain ⟨w, h1, hR⟩ := arr_run_refines (V := Int) demoL_WF 0 [.new 0 1 1 demoCell] (ArrR.init demoL) (σ' := _) (outs := _) rfl
  obtain ⟨a, ha, hrep⟩ := hR.arr (s := 0) rfl
  have hl := ListIs.of_rep demoL_WF ha hrep
  exact ⟨w, _, hl, C24_push_full hl (by simp) _⟩

example : ∃ w : ArrWorld Int, ListIs demoL w 0 1 [] ∧
    w.step demoL (.pop 0) = .ok (w, .threw (.outOfRange "soa_array is already empty")) := by
  obtain ⟨w, h1, hR⟩ := arr_run_refines (V := Int) demoL_WF 0 [.new 0 1 0 demoCell] (ArrR.init demoL) (σ' := _) (outs := _) rfl
  obtain ⟨a, ha, hrep⟩ := hR.arr (s := 0) rfl
  have hl := ListIs.of_rep demoL_WF ha hrep
  exact ⟨w, hl, C24_pop_empty hl⟩

/-- A full array of three, an empty array of two. -/
theorem demo_too_large : ∃ w : ArrWorld Int, (∃ l, ListIs demoL w 0 3 l ∧ l.length = 3) ∧ ListIs demoL w 1 2 [] ∧
    w.a 2 = none := by
  obtain ⟨w, h1, hR⟩ := arr_run_refines (V := Int) demoL_WF 0 [.new 0 3 3 demoCell, .new 1 2 0 demoCell] (ArrR.init demoL)
    (σ' := _) (outs := _) rfl
  obtain ⟨a, ha, hrep⟩ := hR.arr (s := 0) rfl
  obtain ⟨b, hb, hrep'⟩ := hR.arr (s := 1) rfl
  exact ⟨w, ⟨_, ListIs.of_rep demoL_WF ha hrep, rfl⟩, ListIs.of_rep demoL_WF hb hrep', hR.absent rfl⟩

example : ∃ w w' : ArrWorld Int, ∃ e, w.step demoL (.load 1 0 0 3 0) = .ok (w', .threw e) := by
  obtain ⟨w, ⟨l, h0, hl⟩, h1, h2⟩ := demo_too_large
  obtain ⟨w', e, h⟩ := (C24_load_iff h1 h0 (j := 0) (num := 3) (off := 0) (by simp)).1.2 (by decide)
  exact ⟨w, w', e, h⟩

example : ∃ w : ArrWorld Int, w.step demoL (.assign 1 0 true) = .ok (w, .threw SArr.tooLarge) ∧
    w.step demoL (.load 1 0 0 3 0) = .ok (w, .threw SArr.tooLarge) ∧
    w.step demoL (.append 1 0 0 3) = .ok (w, .threw SArr.tooLarge) ∧
    ∃ w', w.step demoL (.copy 2 2 0 false) = .ok (w', .threw SArr.tooLarge) := by
  obtain ⟨w, ⟨l, h0, hl⟩, h1, h2⟩ := demo_too_large
  obtain ⟨w', h3, _⟩ := C24_copy demoL_WF 0 h2 h0 (N := 2) (by omega) (by omega) false
  exact ⟨w, C24_assign h1 h0 (by omega) (by omega) true, C24_load_partial h1 h0 (by omega) (by omega),
    C24_append_partial h1 h0 (by simp) (by simp), w', h3⟩

/-! Loops that must fail -/

theorem loopM_error {σ : Type} {n q : Nat} (hq : q < n) {f : Nat → σ → Except UB σ} (hf : ∀ s, ∃ u, f q s = .error u) (s : σ) :
    ∃ u, loopM n f s = .error u := by
  induction n with
  | zero => omega
  | succ n ih =>
    rw [loopM_succ]
    by_cases e : q = n
    · subst e
      cases h : loopM q f s with
      | error u => exact ⟨u, rfl⟩
      | ok s' => exact hf s'
    · obtain ⟨u, hu⟩ := ih (by omega)
      exact ⟨u, by rw [hu]; rfl⟩

/-- C24 does not hold for all counts: if `num + offset` exceeds the range of `size_t` then the capacity check passes, and
    `load` runs into undefined behaviour. -/
theorem C24_false {m : Member V} {L' : Layout V} (hL : Layout.WF (m :: L')) {w : ArrWorld V} {s t N M j num off : Nat}
    {l k : List (Cell V)} (hst : s ≠ t) (h : ListIs (m :: L') w s N l) (h' : ListIs (m :: L') w t M k) (hlN : l.length ≤ N)
    (hd : ∀ o, w.a t = some o → o.data.size < 2 ^ 63)
    (hnum : num < 2 ^ 64) (hn63 : 2 ^ 63 ≤ num) (_hwrap : 2 ^ 64 ≤ num + off) (hsum : (num + off) % 2 ^ 64 ≤ N) :
    ∃ u, w.step (m :: L') (.load s t j num off) = .error u := by
  obtain ⟨a, ha, h1, h2⟩ := h.exists
  obtain ⟨o, ho, h1', h2'⟩ := h'.exists
  have hno : ¬ max a.n ((num + off) % 2 ^ 64) > a.N := by omega
  have hsz := (hL m (by simp)).1
  have hel := (hL m (by simp)).2
  have hbig := hd o ho
  have key : ∀ b, ∃ u, (SArr.accSz a.N off).loadRaw (m :: L') (ArrWorld.srcOf s t o) num j o.N b = .error u := by
    intro b
    have hsrc : ArrWorld.srcOf s t o = fun _ => o.data := by simp [ArrWorld.srcOf, hst]
    -- reading struct number `o.data.size` fails
    have hread : ∀ (x : Int), 0 ≤ x → ((o.data.read ((offset (m :: L') 0 : Int) * o.N + (x + (j : Int) + o.data.size) * m.ty.size) m.ty)) =
        .error .oob := by
      intro x hx
      unfold Block.read
      have : ¬ (o.data.inB ((offset (m :: L') 0 : Int) * o.N + (x + (j : Int) + o.data.size) * m.ty.size) m.ty.size = true) := by
        simp only [Block.inB, Bool.and_eq_true, offset, not_and]
        intro _
        have h1 : (1 : Int) ≤ m.ty.size := by omega
        have h2 : (x + (j : Int) + o.data.size) * 1 ≤ (x + (j : Int) + o.data.size) * m.ty.size :=
          Int.mul_le_mul_of_nonneg_left h1 (by omega)
        simp only [Nat.cast_zero, Int.zero_mul, Int.zero_add]
        rw [decide_eq_true_eq]
        omega
      rw [if_neg this]
    unfold Acc.loadRaw
    simp only [forEach, hsrc]
    cases har : m.arity with
    | none =>
      obtain ⟨u, hu⟩ := loopM_error (q := o.data.size) (n := num) (by omega) (s := b)
        (f := fun i b => (o.data.read ((offset (m :: L') 0 : Int) * o.N + ((j : Int) + i) * m.ty.size) m.ty).bind fun v =>
          b.assign ((SArr.accSz a.N off).member (m :: L') 0 m 0 + (i : Int) * m.ty.size) m.ty v) (fun b => by
          have := hread 0 (by omega)
          rw [Int.zero_add] at this
          simp only [this]
          exact ⟨.oob, rfl⟩)
      simp only [hu]
      exact ⟨u, rfl⟩
    | some n =>
      have hn : 0 < n := by simpa [Member.elems, har] using hel
      obtain ⟨u, hu⟩ := loopM_error (q := 0) (n := n) hn (s := b)
        (f := fun k b => loopM num (fun i b =>
          (o.data.read ((offset (m :: L') 0 : Int) * o.N + ((o.N : Int) * k + j + i) * m.ty.size) m.ty).bind fun v =>
          b.assign ((SArr.accSz a.N off).arrayRef (m :: L') 0 m 0 + (((SArr.accSz a.N off).ext.prod : Int) * k + i) * m.ty.size) m.ty v) b)
        (fun b => loopM_error (q := o.data.size) (n := num) (by omega) (s := b) (fun b => by
          have := hread 0 (by omega)
          simp only [Nat.cast_zero, Int.mul_zero]
          simp only [this]
          exact ⟨.oob, rfl⟩))
      simp only [hu]
      exact ⟨u, rfl⟩
  obtain ⟨u, hu⟩ := key a.data
  refine ⟨u, ?_⟩
  simp only [ArrWorld.step, ArrWorld.withA, ha, ho, SArr.load, if_neg hno, hu, ArrWorld.modify]

example : ∃ w : ArrWorld Int, ∃ u, w.step demoL (.load 1 0 0 (2 ^ 64 - 1) 1) = .error u := by
  obtain ⟨w, h1, hR⟩ := arr_run_refines (V := Int) demoL_WF 0 [.new 0 3 3 demoCell, .new 1 2 1 demoCell] (ArrR.init demoL)
    (σ' := _) (outs := _) rfl
  obtain ⟨a, ha, hrep⟩ := hR.arr (s := 0) rfl
  obtain ⟨b, hb, hrep'⟩ := hR.arr (s := 1) rfl
  refine ⟨w, C24_false demoL_WF (by omega) (ListIs.of_rep demoL_WF hb hrep') (ListIs.of_rep demoL_WF ha hrep) (by simp) ?_
    (by omega) (by omega) (by omega) (by omega)⟩
  intro o ho
  rw [ha] at ho; cases ho
  rw [hrep.size]
  decide

/-! ### C25 -/

/-- C25 within the capacity: `n` copies of the value. -/
theorem C25_partial (hL : L.WF) (dv : V) {w : ArrWorld V} (hV : ArrValid L w) {s N n : Nat} (hs : w.a s = none) (hn : n ≤ N)
    (hN : N < 2 ^ 31) (v : Cell V) :
    ∃ w', w.step L (.new s N n v) = .ok (w', .unit) ∧ ListIs L w' s N (List.replicate n v) ∧
      ∀ t, t ≠ s → w'.a t = w.a t := by
  obtain ⟨σ, hR⟩ := hV.refines hL dv
  have hσ : σ s = none := by
    cases h : σ s with
    | none => rfl
    | some p => obtain ⟨a, ha, _⟩ := hR.arr h; rw [ha] at hs; cases hs
  obtain ⟨w', h1, h2⟩ := arr_step_refines hL dv hR (op := .new s N n v) (σ' := ArrWorld.upd σ s (some (N, List.replicate n v)))
    (out := .unit) (by simp only [ArrSpec.step, hσ]; rw [if_pos ⟨hn, hN⟩])
  refine ⟨w', h1, ?_, ?_⟩
  · obtain ⟨a, ha, hrep⟩ := h2.arr (s := s) (N := N) (l := List.replicate n v) (by simp [ArrWorld.upd])
    exact ListIs.of_rep hL ha hrep
  · intro t ht
    simp only [ArrWorld.step, hs] at h1
    split at h1
    · injection h1 with h1; injection h1 with h1 _; subst h1; simp [ArrWorld.upd, ht]
    · cases h1

example : ∃ w', (ArrWorld.init (V := Int)).step demoL (.new 3 7 5 demoCell) = .ok (w', .unit) ∧
    ListIs demoL w' 3 7 (List.replicate 5 demoCell) := by
  obtain ⟨w', h1, h2, _⟩ := C25_partial demoL_WF 0 (w := ArrWorld.init) ⟨[], _, _, rfl, rfl⟩ (s := 3) rfl (N := 7) (n := 5)
    (by omega) (by omega) demoCell
  exact ⟨w', h1, h2⟩

theorem loopM_first_error {σ : Type} {n q : Nat} (hq : q < n) {f : Nat → σ → Except UB σ} {s s' : σ} {u : UB}
    (h1 : loopM q f s = .ok s') (h2 : f q s' = .error u) : loopM n f s = .error u := by
  induction n with
  | zero => omega
  | succ n ih =>
    rw [loopM_succ]
    by_cases e : q = n
    · subst e; rw [h1]; exact h2
    · rw [ih (by omega)]; rfl

/-- The operation does not change the size of the buffer. -/
def KeepsSize (f : Block V → Except UB (Block V)) : Prop := ∀ b b', f b = .ok b' → b'.size = b.size

theorem KeepsSize.assign (a : Int) (ty : Ty) (v : V) : KeepsSize (fun b => b.assign a ty v) := by
  intro b b' h
  simp only [Block.assign] at h
  split at h
  · by_cases hc : (if ty.triv = true then b.noNT a.toNat ty.size else (b.rd a.toNat ty).isSome) = true
    · rw [if_pos hc] at h; cases h; rfl
    · rw [if_neg hc] at h; cases h
  · cases h

theorem KeepsSize.loop {n : Nat} {f : Nat → Block V → Except UB (Block V)} (hf : ∀ j, KeepsSize (f j)) :
    KeepsSize (loopM n f) := by
  induction n with
  | zero => intro b b' h; cases h; rfl
  | succ n ih =>
    intro b b' h
    rw [loopM_succ] at h
    cases h1 : loopM n f b with
    | error u => rw [h1] at h; cases h
    | ok b1 => rw [h1] at h; exact (hf n b1 b' h).trans (ih b b1 h1)

theorem KeepsSize.forEach {f : Nat → Member V → Block V → Except UB (Block V)} (hf : ∀ r m, KeepsSize (f r m))
    (ms : Layout V) (r0 : Nat) : KeepsSize (fun b => LFA.forEach f ms r0 b) := by
  induction ms generalizing r0 with
  | nil => intro b b' h; cases h; rfl
  | cons m ms ih =>
    intro b b' h
    simp only [LFA.forEach] at h
    cases h1 : f r0 m b with
    | error u => rw [h1] at h; cases h
    | ok b1 => rw [h1] at h; exact (ih (r0 + 1) b1 b' h).trans (hf r0 m b b1 h1)

theorem forEach_append {σ : Type} (f : Nat → Member V → σ → Except UB σ) (ms ms' : Layout V) (r0 : Nat) (s : σ) :
    forEach f (ms ++ ms') r0 s = (forEach f ms r0 s).bind (forEach f ms' (r0 + ms.length)) := by
  induction ms generalizing r0 s with
  | nil => simp [forEach, Except.bind]
  | cons m ms ih =>
    simp only [List.cons_append, forEach, List.length_cons]
    cases f r0 m s with
    | error u => rfl
    | ok s1 =>
      show forEach f (ms ++ ms') (r0 + 1) s1 = _
      rw [ih]
      have : r0 + 1 + ms.length = r0 + (ms.length + 1) := by omega
      rw [this]; rfl

theorem setCell_keepsSize (A : Acc) (v : Cell V) : KeepsSize (A.setCell L v) := by
  refine KeepsSize.forEach (fun r m => ?_) L 0
  cases m.arity with
  | none => exact KeepsSize.assign _ _ _
  | some n => exact KeepsSize.loop (fun k => KeepsSize.assign _ _ _)

/-- Writing one struct behind the end fails at the latest with the last member. -/
theorem setCell_behind (hL : L.WF) (hne : L ≠ []) {N : Nat} {b : Block V} (hb : b.size = aggSize L * N) (v : Cell V) :
    ∃ u, (SArr.acc N (N : Nat)).setCell L v b = .error u := by
  obtain ⟨L1, m, rfl⟩ : ∃ L1 m, L = L1 ++ [m] :=
    ⟨L.dropLast, L.getLast hne, (List.dropLast_concat_getLast hne).symm⟩
  have hm : (L1 ++ [m])[L1.length]? = some m := by simp
  have hsz := hL.size_pos hm
  have hel := hL.elems_pos hm
  have hagg : aggSize (L1 ++ [m]) = offset (L1 ++ [m]) L1.length + m.ty.size * m.elems := by
    unfold aggSize
    rw [List.length_append, List.length_cons, List.length_nil, ← offset_succ hm]
  have hfail : ∀ (b1 : Block V) (v : V), b1.size = b.size → b1.assign ((slot (SArr.dim N).prod (offset (L1 ++ [m]) L1.length)
      m.ty.size (m.elems - 1) N : Nat) : Int) m.ty v = .error .oob := by
    intro b1 v hb1
    unfold Block.assign
    rw [if_neg]
    have e1 : m.ty.size * m.elems = m.ty.size * (m.elems - 1) + m.ty.size := by
      conv_lhs => rw [show m.elems = (m.elems - 1) + 1 by omega]
      rw [Nat.mul_add, Nat.mul_one]
    have e2 : slot (SArr.dim N).prod (offset (L1 ++ [m]) L1.length) m.ty.size (m.elems - 1) N = aggSize (L1 ++ [m]) * N := by
      unfold slot
      rw [SArr.prod_dim, hagg, e1]; ring
    rw [e2]
    simp only [Block.inB, Bool.and_eq_true, decide_eq_true_eq, not_and]
    intro _
    rw [hb1, hb]
    omega
  unfold Acc.setCell
  rw [forEach_append]
  generalize hg : forEach _ L1 0 b = g
  cases g with
  | error u => exact ⟨u, rfl⟩
  | ok b1 =>
    have hb1 : b1.size = b.size := by
      refine KeepsSize.forEach (fun r m => ?_) L1 0 b b1 hg
      cases m.arity with
      | none => exact KeepsSize.assign _ _ _
      | some n => exact KeepsSize.loop (fun k => KeepsSize.assign _ _ _)
    simp only [Except.bind, forEach, Nat.zero_add]
    have hA := accAt_At (SArr.dim N) N
    cases har : m.arity with
    | none =>
      have he := elems_none har
      have := hfail b1 (v L1.length 0) hb1
      have e0 : m.elems - 1 = 0 := by omega
      rw [e0] at this
      have ea := Acc.member_slot (L1 ++ [m]) hA L1.length m 0 hel
      simp only [SArr.acc]
      rw [ea]
      simp only [accAt]
      rw [this]
      exact ⟨_, rfl⟩
    | some n =>
      have he := elems_some har
      have ea := Acc.member_plane_slot (L1 ++ [m]) hA L1.length m (n - 1) hel
      have key : ∃ u, loopM n (fun k b => b.assign ((SArr.acc N (N : Nat)).member (L1 ++ [m]) L1.length m 0 +
          ((SArr.acc N (N : Nat)).ext.prod : Int) * k * m.ty.size) m.ty (v L1.length k)) b1 = .error u := by
        obtain ⟨n', rfl⟩ : ∃ n', n = n' + 1 := ⟨n - 1, by omega⟩
        rw [loopM_succ]
        generalize hg2 : loopM n' _ b1 = g2
        cases g2 with
        | error u => exact ⟨u, rfl⟩
        | ok b2 =>
          have hb2 : b2.size = b1.size := KeepsSize.loop (fun k => KeepsSize.assign _ _ _) b1 b2 hg2
          refine ⟨.oob, ?_⟩
          have := hfail b2 (v L1.length n') (hb2.trans hb1)
          have e0 : m.elems - 1 = n' := by omega
          rw [e0] at this
          simp only [Nat.add_sub_cancel] at ea
          simp only [Except.bind, SArr.acc]
          rw [ea]
          exact this
      obtain ⟨u, hu⟩ := key
      simp only [hu]
      exact ⟨u, rfl⟩

/-- C25 is false beyond the capacity: the constructor neither throws nor clips, but overruns its storage. -/
theorem C25_false (dv : V) (hL : L.WF) (hne : L ≠ []) {w : ArrWorld V} {s N n : Nat} (hs : w.a s = none) (hn : N < n)
    (hn31 : n < 2 ^ 31) (v : Cell V) : ∃ u, w.step L (.new s N n v) = .error u := by
  obtain ⟨b, c1, c2, c3⟩ := SArr.constructAll_ok hL dv N
  obtain ⟨b', d1, d2, d3⟩ := SArr.fill_ok hL (Nat.le_refl N) c3 v
  obtain ⟨u, hu⟩ := setCell_behind hL hne (d2.trans c2) v
  refine ⟨u, ?_⟩
  rw [walk_eq] at d1
  have e : walk n 0 (fun _ idx b => (SArr.acc N idx).setCell L v b) b = .error u := by
    rw [walk_eq]
    exact loopM_first_error hn d1 (by rw [Int.zero_add]; exact hu)
  have e2 : SArr.new L N n v = .error u := by
    unfold SArr.new
    rw [c1, toInt32_small hn31]
    show (walk ((n : Int)).toNat 0 _ b).map _ = _
    rw [Int.toNat_natCast, e]; rfl
  simp only [ArrWorld.step, hs, e2]

example : ∃ u, (ArrWorld.init (V := Int)).step demoL (.new 0 4 5 demoCell) = .error u :=
  C25_false 0 demoL_WF (by decide) rfl (by omega) (by omega) demoCell

/-! ### C26 -/

/-- C26, copying: an array constructed from another one (of any capacity) has the same elements; all other arrays keep their
    state. For const sources of the same type see C27. -/
theorem C26_copy (hL : L.WF) (dv : V) {w : ArrWorld V} (hV : ArrValid L w) {s t N M : Nat} {l : List (Cell V)} (hs : w.a s = none)
    (ht : ListIs L w t M l) (hN : N < 2 ^ 31) (hfit : l.length ≤ N) {cst : Bool} (hc : cst = true → N ≠ M) :
    ∃ w', w.step L (.copy s N t cst) = .ok (w', .unit) ∧ ListIs L w' s N l ∧ ∀ t, t ≠ s → w'.a t = w.a t := by
  obtain ⟨σ, a, l', hR, hσt, ha, hrep, hlen, hag⟩ := ht.rep hL dv hV
  have hb : ¬ (cst = true ∧ N = a.N) := fun ⟨h1, h2⟩ => hc h1 (h2.trans hrep.cap)
  obtain ⟨b, c1, c2, c3⟩ := SArr.constructAll_ok hL dv N
  obtain ⟨a', d1, d2⟩ := Rep.copyIn (a := ⟨N, 0, b⟩) hL rfl rfl hN c2 c3 hrep (show l'.length ≤ N by omega) (src := fun _ => a.data) (.inl rfl)
  refine ⟨⟨ArrWorld.upd w.a s (some a'), w.gone⟩, ?_, ?_, fun t ht => by simp [ArrWorld.upd, ht]⟩
  · simp only [ArrWorld.step, hs, ArrWorld.withA, ha, if_neg hb, c1, d1]
  · exact (ListIs.of_rep hL (s := s) (by simp [ArrWorld.upd]) d2).congr hlen.symm
      (fun i c c' h h' t => (hag i c' c h' h t).symm)

/-- C26, assignment. -/
theorem C26_assign (hL : L.WF) (dv : V) {w : ArrWorld V} (hV : ArrValid L w) {s t N M : Nat} {k l : List (Cell V)}
    (hs : ListIs L w s N k) (ht : ListIs L w t M l) (hfit : l.length ≤ N) {cst : Bool} (hc : cst = true → N ≠ M) :
    ∃ w', w.step L (.assign s t cst) = .ok (w', .unit) ∧ ListIs L w' s N l ∧ ∀ t, t ≠ s → w'.a t = w.a t := by
  obtain ⟨σ, a, l', hR, hσt, ha, hrep, hlen, hag⟩ := ht.rep hL dv hV
  obtain ⟨σ2, a2, k', _, _, ha2, hrep2, _⟩ := hs.rep hL dv hV
  have hb : ¬ (cst = true ∧ a2.N = a.N) := fun ⟨h1, h2⟩ => hc h1 (by rw [← hrep.cap, ← hrep2.cap]; exact h2)
  obtain ⟨c, hv, _⟩ := hrep2.cells
  obtain ⟨a', d1, d2⟩ := Rep.copyIn hL hrep2.cap rfl hrep2.int hrep2.size hv hrep (by omega)
    (src := ArrWorld.srcOf s t a) (by
      unfold ArrWorld.srcOf
      by_cases e : s = t
      · subst e
        rw [ha] at ha2; cases ha2
        exact .inr ⟨by simp, rfl⟩
      · exact .inl (by simp [e]))
  refine ⟨⟨ArrWorld.upd w.a s (some a'), w.gone⟩, ?_, ?_, fun t ht => by simp [ArrWorld.upd, ht]⟩
  · simp only [ArrWorld.step, ArrWorld.withA, ha, ha2, if_neg hb, d1, ArrWorld.modify]
  · exact (ListIs.of_rep hL (s := s) (by simp [ArrWorld.upd]) d2).congr hlen.symm
      (fun i c c' h h' t => (hag i c' c h' h t).symm)

/-- C26, `load(accessor, num, offset)`: the elements `offset … offset+num-1` are those of the source from position `j` on, all
    others are kept; the array grows if needed. The source may be the array itself if the ranges are disjoint. -/
theorem C26_load (hL : L.WF) (dv : V) {w : ArrWorld V} (hV : ArrValid L w) {s t N M j num off : Nat} {k l : List (Cell V)}
    (hs : ListIs L w s N k) (ht : ListIs L w t M l) (hoff : off ≤ k.length) (hj : j + num ≤ l.length) (hfit : off + num ≤ N)
    (hself : s = t → j + num ≤ off ∨ off + num ≤ j) :
    ∃ w' new, w.step L (.load s t j num off) = .ok (w', .unit) ∧ ListIs L w' s N new ∧
      new.length = max k.length (off + num) ∧
      (∀ i, i < num → new[off + i]? = l[j + i]?) ∧ (∀ i, i < off ∨ off + num ≤ i → new[i]? = k[i]?) ∧
      ∀ t, t ≠ s → w'.a t = w.a t := by
  obtain ⟨σ, a, l', hR, hσt, ha, hrep, hlen, hag⟩ := ht.rep hL dv hV
  obtain ⟨σ2, a2, k', _, _, ha2, hrep2, hlen2, hag2⟩ := hs.rep hL dv hV
  obtain ⟨a', d1, d2⟩ := hrep2.load hL hrep (src := ArrWorld.srcOf s t a) (j := j) (num := num) (off := off) (by
    unfold ArrWorld.srcOf
    by_cases e : s = t
    · have hd := hself e
      subst e
      rw [ha] at ha2; cases ha2
      exact .inr ⟨by simp, rfl, hd⟩
    · exact .inl (by simp [e])) (by omega) (by omega) (by omega)
  have hget : ∀ {k l : List (Cell V)}, off ≤ k.length → j + num ≤ l.length →
      (ArrSpec.overwrite k ((l.drop j).take num) off).length = max k.length (off + num) ∧
      (∀ i, i < num → (ArrSpec.overwrite k ((l.drop j).take num) off)[off + i]? = l[j + i]?) ∧
      (∀ i, i < off ∨ off + num ≤ i → (ArrSpec.overwrite k ((l.drop j).take num) off)[i]? = k[i]?) := by
    intro k l hoff hj
    have hlen1 : (k.take off).length = off := by simp; omega
    have hlen2 : ((l.drop j).take num).length = num := by simp; omega
    refine ⟨?_, ?_, ?_⟩
    · simp only [ArrSpec.overwrite, List.length_append, hlen1, hlen2, List.length_drop]; omega
    · intro i hi
      unfold ArrSpec.overwrite
      rw [List.append_assoc, List.getElem?_append_right (by omega), List.getElem?_append_left (by omega), hlen1,
        List.getElem?_take, if_pos (by omega), List.getElem?_drop]
      congr 1; omega
    · intro i hi
      unfold ArrSpec.overwrite
      rcases hi with hi | hi
      · rw [List.append_assoc, List.getElem?_append_left (by omega), List.getElem?_take, if_pos hi]
      · rw [List.getElem?_append_right (by simp only [List.length_append]; omega), List.getElem?_drop, hlen2]
        simp only [List.length_append, hlen1, hlen2]
        congr 1; omega
  obtain ⟨p1, p2, p3⟩ := hget (k := k) (l := l) hoff hj
  obtain ⟨q1, q2, q3⟩ := hget (k := k') (l := l') (by omega) (by omega)
  refine ⟨⟨ArrWorld.upd w.a s (some a'), w.gone⟩, ArrSpec.overwrite k ((l.drop j).take num) off, ?_, ?_, p1, p2, p3,
    fun t ht => by simp [ArrWorld.upd, ht]⟩
  · simp only [ArrWorld.step, ArrWorld.withA, ha, ha2, d1, ArrWorld.modify]
  · refine (ListIs.of_rep hL (s := s) (by simp [ArrWorld.upd]) d2).congr (by omega) ?_
    intro i c c' h h' t
    by_cases hi : i < off ∨ off + num ≤ i
    · rw [q3 i hi] at h; rw [p3 i hi] at h'
      exact (hag2 i c' c h' h t).symm
    · have e : i = off + (i - off) := by omega
      rw [e, q2 _ (by omega)] at h
      rw [e, p2 _ (by omega)] at h'
      exact (hag _ c' c h' h t).symm

/-- Arrays of capacities 4 and 7; copy to a capacity of 3. -/
theorem demo_copyable : ∃ w : ArrWorld Int, ArrValid demoL w ∧ ListIs demoL w 0 4 [demoCell, fun _ _ => 9] ∧
    ListIs demoL w 1 7 [fun _ _ => 1, fun _ _ => 2] ∧ w.a 2 = none := by
  obtain ⟨w, h1, hR⟩ := arr_run_refines (V := Int) demoL_WF 0 [.new 0 4 1 demoCell, .push 0 (fun _ _ => 9),
    .new 1 7 1 (fun _ _ => 1), .push 1 (fun _ _ => 2)] (ArrR.init demoL) (σ' := _) (outs := _) rfl
  obtain ⟨a, ha, hrep⟩ := hR.arr (s := 0) rfl
  obtain ⟨b, hb, hrep'⟩ := hR.arr (s := 1) rfl
  exact ⟨w, ⟨_, _, _, rfl, h1⟩, ListIs.of_rep demoL_WF ha hrep, ListIs.of_rep demoL_WF hb hrep', hR.absent rfl⟩

example : ∃ w w' : ArrWorld Int, w.step demoL (.copy 2 3 0 true) = .ok (w', .unit) ∧
    ListIs demoL w' 2 3 [demoCell, fun _ _ => 9] := by
  obtain ⟨w, hV, h0, h1, h2⟩ := demo_copyable
  obtain ⟨w', e1, e2, _⟩ := C26_copy demoL_WF 0 hV h2 h0 (N := 3) (by omega) (by simp) (cst := true) (by omega)
  exact ⟨w, w', e1, e2⟩

example : ∃ w w' : ArrWorld Int, w.step demoL (.assign 1 0 true) = .ok (w', .unit) ∧
    ListIs demoL w' 1 7 [demoCell, fun _ _ => 9] := by
  obtain ⟨w, hV, h0, h1, h2⟩ := demo_copyable
  obtain ⟨w', e1, e2, _⟩ := C26_assign demoL_WF 0 hV h1 h0 (by simp) (cst := true) (by omega)
  exact ⟨w, w', e1, e2⟩

example : ∃ w w' : ArrWorld Int, ∃ new, w.step demoL (.load 1 0 0 2 1) = .ok (w', .unit) ∧ ListIs demoL w' 1 7 new ∧
    new.length = 3 := by
  obtain ⟨w, hV, h0, h1, h2⟩ := demo_copyable
  obtain ⟨w', new, e1, e2, e3, _⟩ := C26_load demoL_WF 0 hV h1 h0 (j := 0) (num := 2) (off := 1) (by simp) (by simp) (by omega)
    (by omega)
  exact ⟨w, w', new, e1, e2, e3⟩

/-! ### C27 and C51: byte-wise copies -/

/-- C27 for structs with trivial members only: copies of const arrays of the same type have the same elements. -/
theorem C27_partial (hL : L.WF) (dv : V) (hT : ∀ m ∈ L, m.ty.triv = true) {w : ArrWorld V} (hV : ArrValid L w) {s t N : Nat}
    {l : List (Cell V)} (hs : w.a s = none) (ht : ListIs L w t N l) :
    ∃ w', w.step L (.copy s N t true) = .ok (w', .unit) ∧ ListIs L w' s N l ∧ ∀ t, t ≠ s → w'.a t = w.a t := by
  obtain ⟨σ, a, l', hR, hσt, ha, hrep, hlen, hag⟩ := ht.rep hL dv hV
  have hT' : ArrSpec.trivial L = true := by simp only [ArrSpec.trivial, List.all_eq_true]; exact hT
  refine ⟨⟨ArrWorld.upd w.a s (some ⟨a.N, a.n, a.data.bytes⟩), w.gone⟩, ?_, ?_, fun t ht => by simp [ArrWorld.upd, ht]⟩
  · simp only [ArrWorld.step, hs, ArrWorld.withA, ha]
    rw [if_pos ⟨trivial, hrep.cap.symm⟩]
  · exact (ListIs.of_rep hL (s := s) (by simp [ArrWorld.upd]) (hrep.bytewise hT')).congr hlen.symm
      (fun i c c' h h' t => (hag i c' c h' h t).symm)

/-- struct { int a; float b[2]; }. -/
def plainL : Layout Int := [⟨⟨4, true⟩, none, 0⟩, ⟨⟨4, true⟩, some 2, 0⟩]

theorem plainL_WF : plainL.WF := by
  intro m hm
  simp only [plainL, List.mem_cons, List.not_mem_nil, or_false] at hm
  rcases hm with rfl | rfl <;> simp [Member.elems]

theorem plainL_triv : ∀ m ∈ plainL, m.ty.triv = true := by
  intro m hm
  simp only [plainL, List.mem_cons, List.not_mem_nil, or_false] at hm
  rcases hm with rfl | rfl <;> rfl

/-- Two arrays of the same type. -/
theorem demo_plain : ∃ w : ArrWorld Int, ArrValid plainL w ∧ ListIs plainL w 0 4 [demoCell, fun _ _ => 9] ∧
    ListIs plainL w 1 4 [fun _ _ => 1] ∧ w.a 2 = none := by
  obtain ⟨w, h1, hR⟩ := arr_run_refines (V := Int) plainL_WF 0 [.new 0 4 1 demoCell, .push 0 (fun _ _ => 9),
    .new 1 4 1 (fun _ _ => 1)] (ArrR.init plainL) (σ' := _) (outs := _) rfl
  obtain ⟨a, ha, hrep⟩ := hR.arr (s := 0) rfl
  obtain ⟨b, hb, hrep'⟩ := hR.arr (s := 1) rfl
  exact ⟨w, ⟨_, _, _, rfl, h1⟩, ListIs.of_rep plainL_WF ha hrep, ListIs.of_rep plainL_WF hb hrep', hR.absent rfl⟩

example : ∃ w w' : ArrWorld Int, w.step plainL (.copy 2 4 0 true) = .ok (w', .unit) ∧
    ListIs plainL w' 2 4 [demoCell, fun _ _ => 9] := by
  obtain ⟨w, hV, h0, h1, h2⟩ := demo_plain
  obtain ⟨w', e1, e2, _⟩ := C27_partial plainL_WF 0 plainL_triv hV h2 h0
  exact ⟨w, w', e1, e2⟩

/-- C27 for structs with trivial members only, assignment. -/
theorem C27_assign_partial (hL : L.WF) (dv : V) (hT : ∀ m ∈ L, m.ty.triv = true) {w : ArrWorld V} (hV : ArrValid L w)
    {s t N : Nat} {k l : List (Cell V)} (hs : ListIs L w s N k) (ht : ListIs L w t N l) :
    ∃ w', w.step L (.assign s t true) = .ok (w', .unit) ∧ ListIs L w' s N l ∧ ∀ t, t ≠ s → w'.a t = w.a t := by
  obtain ⟨σ, a, l', hR, hσt, ha, hrep, hlen, hag⟩ := ht.rep hL dv hV
  obtain ⟨a2, ha2, hN2, _⟩ := hs.exists
  have hT' : ArrSpec.trivial L = true := by simp only [ArrSpec.trivial, List.all_eq_true]; exact hT
  refine ⟨⟨ArrWorld.upd w.a s (some ⟨a.N, a.n, a.data.bytes⟩), w.gone⟩, ?_, ?_, fun t ht => by simp [ArrWorld.upd, ht]⟩
  · simp only [ArrWorld.step, ArrWorld.withA, ha, ha2]
    rw [if_pos ⟨trivial, hN2.trans hrep.cap.symm⟩]
  · exact (ListIs.of_rep hL (s := s) (by simp [ArrWorld.upd]) (hrep.bytewise hT')).congr hlen.symm
      (fun i c c' h h' t => (hag i c' c h' h t).symm)

example : ∃ w w' : ArrWorld Int, w.step plainL (.assign 1 0 true) = .ok (w', .unit) ∧
    ListIs plainL w' 1 4 [demoCell, fun _ _ => 9] := by
  obtain ⟨w, hV, h0, h1, h2⟩ := demo_plain
  obtain ⟨w', e1, e2, _⟩ := C27_assign_partial plainL_WF 0 plainL_triv hV h1 h0
  exact ⟨w, w', e1, e2⟩

theorem bytes_noNT (b : Block V) (a s : Nat) : b.bytes.NoNT a s := by
  intro i _
  simp only [Block.bytes]
  by_cases h : (b.get (a + i)).nonTriv = true
  · rw [if_pos h]; rfl
  · rw [if_neg h]; simpa using h

theorem destroy_bytes (hL : L.WF) {m : Member V} (hm : m ∈ L) (b : Block V) (a : Int) :
    (m.ty.triv = false → ∃ u, b.bytes.destroy a m.ty = .error u) ∧
    (b.bytes.destroy a m.ty = .ok b.bytes ∨ ∃ u, b.bytes.destroy a m.ty = .error u) := by
  have hrd : m.ty.triv = false → b.bytes.rd a.toNat m.ty = none :=
    fun ht => Block.rd_none_of_noNT (hL m hm).1 ht (bytes_noNT b _ _)
  unfold Block.destroy
  by_cases hin : b.bytes.inB a m.ty.size = true
  · simp only [hin, if_true]
    cases ht : m.ty.triv with
    | true => exact ⟨fun h => (nomatch h), .inl rfl⟩
    | false =>
      rw [hrd ht]
      exact ⟨fun _ => ⟨_, rfl⟩, .inr ⟨_, rfl⟩⟩
  · simp only [hin, if_false, Bool.false_eq_true]
    exact ⟨fun _ => ⟨_, rfl⟩, .inr ⟨_, rfl⟩⟩

theorem loop_same_or_error {σ : Type} {s : σ} {n : Nat} {f : Nat → σ → Except UB σ}
    (hf : ∀ j, j < n → f j s = .ok s ∨ ∃ u, f j s = .error u) : loopM n f s = .ok s ∨ ∃ u, loopM n f s = .error u := by
  induction n with
  | zero => exact .inl rfl
  | succ n ih =>
    rw [loopM_succ]
    rcases ih (fun j hj => hf j (by omega)) with h | ⟨u, h⟩
    · rw [h]; exact hf n (by omega)
    · rw [h]; exact .inr ⟨u, rfl⟩

/-- Destroying the members of a byte-wise copy fails if there is a non-trivial member. -/
theorem destroyMembers_bytes (hL : L.WF) (hnt : ∃ m ∈ L, m.ty.triv = false) (A : Acc) (b : Block V) :
    ∃ u, A.destroyMembers L b.bytes = .error u := by
  let f : Nat → Member V → Block V → Except UB (Block V) := fun r m b =>
    match m.arity with
    | none => b.destroy (A.member L r m 0) m.ty
    | some n => loopM n (fun k b => b.destroy (A.arrayRef L r m k) m.ty) b
  have hf1 : ∀ r m, m ∈ L → m.ty.triv = false → ∃ u, f r m b.bytes = .error u := by
    intro r m hm ht
    simp only [f]
    cases har : m.arity with
    | none => exact (destroy_bytes hL hm b _).1 ht
    | some n =>
      have hn : 0 < n := by have := (hL m hm).2; simpa [Member.elems, har] using this
      obtain ⟨u, hu⟩ := (destroy_bytes hL hm b (A.arrayRef L r m 0)).1 ht
      exact ⟨u, loopM_first_error hn rfl hu⟩
  have hf2 : ∀ r m, m ∈ L → f r m b.bytes = .ok b.bytes ∨ ∃ u, f r m b.bytes = .error u := by
    intro r m hm
    simp only [f]
    cases har : m.arity with
    | none => exact (destroy_bytes hL hm b _).2
    | some n => exact loop_same_or_error (fun k _ => (destroy_bytes hL hm b _).2)
  have key : ∀ (ms : Layout V) (r0 : Nat), (∀ m ∈ ms, m ∈ L) → (∃ m ∈ ms, m.ty.triv = false) →
      ∃ u, forEach f ms r0 b.bytes = .error u := by
    intro ms
    induction ms with
    | nil => rintro r0 _ ⟨m, hm, _⟩; cases hm
    | cons m ms ih =>
      rintro r0 hsub ⟨m', hm', ht'⟩
      simp only [forEach]
      rcases hf2 r0 m (hsub m (by simp)) with h | ⟨u, h⟩
      · rw [h]
        rcases List.mem_cons.mp hm' with rfl | hm'
        · obtain ⟨u, hu⟩ := hf1 r0 m' (hsub m' (by simp)) ht'
          rw [hu] at h; cases h
        · exact ih (r0 + 1) (fun m hm => hsub m (by simp [hm])) ⟨m', hm', ht'⟩
      · rw [h]; exact ⟨u, rfl⟩
  exact key L 0 (fun _ h => h) hnt

theorem dtor_bytes (hL : L.WF) (hnt : ∃ m ∈ L, m.ty.triv = false) {N n : Nat} (hN : 0 < N) (b : Block V) :
    ∃ u, SArr.dtor L ⟨N, n, b.bytes⟩ = .error u := by
  obtain ⟨u, hu⟩ := destroyMembers_bytes hL hnt (SArr.acc N (0 + (0 : Nat))) b
  refine ⟨u, ?_⟩
  unfold SArr.dtor
  rw [walk_eq]
  exact loopM_first_error hN rfl hu

/-- C27 is false as soon as there is a member with a non-trivial type: copy construction from a const array of the same
    type does not create member objects, so that destroying the copy is undefined behaviour. -/
theorem C27_false (hL : L.WF) (hnt : ∃ m ∈ L, m.ty.triv = false) {w : ArrWorld V} {s t N : Nat} {l : List (Cell V)}
    (hs : w.a s = none) (ht : ListIs L w t N l) (hN : 0 < N) :
    ∃ w' u, w.step L (.copy s N t true) = .ok (w', .unit) ∧ w'.step L (.destroy s) = .error u := by
  obtain ⟨o, ho, h1, h2⟩ := ht.exists
  obtain ⟨u, hu⟩ := dtor_bytes hL hnt (n := o.n) (show 0 < o.N by omega) o.data
  refine ⟨⟨ArrWorld.upd w.a s (some ⟨o.N, o.n, o.data.bytes⟩), w.gone⟩, u, ?_, ?_⟩
  · simp only [ArrWorld.step, hs, ArrWorld.withA, ho]
    rw [if_pos ⟨trivial, h1.symm⟩]
  · simp only [ArrWorld.step, ArrWorld.withA, ArrWorld.upd, if_true, hu]

example : ∃ w w' : ArrWorld Int, ∃ u, w.step demoL (.copy 2 4 0 true) = .ok (w', .unit) ∧
    w'.step demoL (.destroy 2) = .error u := by
  obtain ⟨w, hV, h0, h1, h2⟩ := demo_copyable
  obtain ⟨w', u, e1, e2⟩ := C27_false demoL_WF ⟨⟨⟨32, false⟩, none, -1⟩, by simp [demoL], rfl⟩ h2 h0 (by omega)
  exact ⟨w, w', u, e1, e2⟩

/-- C51 for structs with trivial members only: `swap` exchanges the elements. -/
theorem C51_partial (hL : L.WF) (dv : V) (hT : ∀ m ∈ L, m.ty.triv = true) {w : ArrWorld V} (hV : ArrValid L w) {s t N : Nat}
    {k l : List (Cell V)} (hst : s ≠ t) (hs : ListIs L w s N k) (ht : ListIs L w t N l) :
    ∃ w', w.step L (.swap s t) = .ok (w', .unit) ∧ ListIs L w' s N l ∧ ListIs L w' t N k ∧
      ∀ q, q ≠ s → q ≠ t → w'.a q = w.a q := by
  obtain ⟨σ, a, l', hR, hσt, ha, hrep, hlen, hag⟩ := ht.rep hL dv hV
  obtain ⟨σ2, a2, k', _, _, ha2, hrep2, hlen2, hag2⟩ := hs.rep hL dv hV
  have hT' : ArrSpec.trivial L = true := by simp only [ArrSpec.trivial, List.all_eq_true]; exact hT
  have e : a2.N = a.N := by rw [hrep.cap, hrep2.cap]
  have r1 : Rep L ⟨a2.N, a.n, a.data.bytes⟩ N l' := by rw [e]; exact hrep.bytewise hT'
  have r2 : Rep L ⟨a.N, a2.n, a2.data.bytes⟩ N k' := by rw [← e]; exact hrep2.bytewise hT'
  refine ⟨⟨ArrWorld.upd (ArrWorld.upd w.a s (some ⟨a2.N, a.n, a.data.bytes⟩)) t (some ⟨a.N, a2.n, a2.data.bytes⟩), w.gone⟩,
    ?_, ?_, ?_, fun q h1 h2 => by simp [ArrWorld.upd, h1, h2]⟩
  · simp only [ArrWorld.step, ArrWorld.withA, ha, ha2]
  · exact (ListIs.of_rep hL (s := s) (by simp [ArrWorld.upd, hst]) r1).congr hlen.symm
      (fun i c c' h h' t => (hag i c' c h' h t).symm)
  · exact (ListIs.of_rep hL (s := t) (by simp [ArrWorld.upd]) r2).congr hlen2.symm
      (fun i c c' h h' t => (hag2 i c' c h' h t).symm)

example : ∃ w w' : ArrWorld Int, w.step plainL (.swap 0 1) = .ok (w', .unit) ∧
    ListIs plainL w' 1 4 [demoCell, fun _ _ => 9] := by
  obtain ⟨w, hV, h0, h1, h2⟩ := demo_plain
  obtain ⟨w', e1, _, e2, _⟩ := C51_partial plainL_WF 0 plainL_triv hV (by omega) h0 h1
  exact ⟨w, w', e1, e2⟩

/-- C51 is false as soon as there is a member with a non-trivial type: `swap` exchanges bytes, it does not move objects. -/
theorem C51_false (hL : L.WF) (hnt : ∃ m ∈ L, m.ty.triv = false) {w : ArrWorld V} {s t N : Nat} {k l : List (Cell V)}
    (hst : s ≠ t) (hs : ListIs L w s N k) (ht : ListIs L w t N l) (hN : 0 < N) :
    ∃ w' u u', w.step L (.swap s t) = .ok (w', .unit) ∧ w'.step L (.destroy s) = .error u ∧
      w'.step L (.destroy t) = .error u' := by
  obtain ⟨a, ha, h1, h2⟩ := hs.exists
  obtain ⟨b, hb, h1', h2'⟩ := ht.exists
  obtain ⟨u, hu⟩ := dtor_bytes hL hnt (n := b.n) (show 0 < a.N by omega) b.data
  obtain ⟨u', hu'⟩ := dtor_bytes hL hnt (n := a.n) (show 0 < b.N by omega) a.data
  refine ⟨⟨ArrWorld.upd (ArrWorld.upd w.a s (some ⟨a.N, b.n, b.data.bytes⟩)) t (some ⟨b.N, a.n, a.data.bytes⟩), w.gone⟩,
    u, u', ?_, ?_, ?_⟩
  · simp only [ArrWorld.step, ArrWorld.withA, ha, hb]
  · simp only [ArrWorld.step, ArrWorld.withA, ArrWorld.upd, if_true, hst, if_false, hu]
  · simp only [ArrWorld.step, ArrWorld.withA, ArrWorld.upd, if_true, hu']

example : ∃ w w' : ArrWorld Int, ∃ u u', w.step demoL (.swap 0 1) = .ok (w', .unit) ∧ w'.step demoL (.destroy 0) = .error u ∧
    w'.step demoL (.destroy 1) = .error u' := by
  obtain ⟨w, h1, hR⟩ := arr_run_refines (V := Int) demoL_WF 0 [.new 0 4 1 demoCell, .new 1 4 2 demoCell] (ArrR.init demoL)
    (σ' := _) (outs := _) rfl
  obtain ⟨a, ha, hrep⟩ := hR.arr (s := 0) rfl
  obtain ⟨b, hb, hrep'⟩ := hR.arr (s := 1) rfl
  obtain ⟨w', u, u', e⟩ := C51_false demoL_WF ⟨⟨⟨32, false⟩, none, -1⟩, by simp [demoL], rfl⟩ (by omega)
    (ListIs.of_rep demoL_WF ha hrep) (ListIs.of_rep demoL_WF hb hrep') (by omega)
  exact ⟨w, w', u, u', e⟩

/-! ### C52: object lifetimes -/

/-- C52, destruction: destroying an array is safe and destroys all objects in its storage (destroying something twice, or
    something that does not exist would be undefined behaviour). -/
theorem C52_destroy_partial (hL : L.WF) (dv : V) {w : ArrWorld V} (hV : ArrValid L w) {s : Nat} {a : SArr V} (ha : w.a s = some a) :
    ∃ w' b, w.step L (.destroy s) = .ok (w', .unit) ∧ w'.a s = none ∧ w'.gone = b :: w.gone ∧ b.size = a.data.size ∧
      ∀ i, i < b.size → (b.get i).nonTriv = false := by
  obtain ⟨σ, hR⟩ := hV.refines hL dv
  cases hs : σ s with
  | none => rw [hR.absent hs] at ha; cases ha
  | some p =>
    obtain ⟨N, l⟩ := p
    obtain ⟨a', ha', hrep⟩ := hR.arr hs
    rw [ha] at ha'; cases ha'
    obtain ⟨c, hv, _⟩ := hrep.cells
    obtain ⟨b, d1, d2, d3⟩ := SArr.dtor_ok (n := a.n) hL hrep.size hv
    have e : (⟨N, a.n, a.data⟩ : SArr V) = a := by rw [← hrep.cap]
    rw [e] at d1
    refine ⟨⟨ArrWorld.upd w.a s none, b :: w.gone⟩, b, ?_, by simp [ArrWorld.upd], rfl, d2, ?_⟩
    · simp only [ArrWorld.step, ArrWorld.withA, ha, d1]
    · intro i hi
      rw [d2, hrep.size] at hi
      obtain ⟨r, m, k, i', j, hm, hk, hi', hj, e⟩ := slot_cover hL hi
      have := d3.hnone r m k i' hm hk hi' rfl j hj
      rw [e]; exact this

example : ∃ w w' : ArrWorld Int, w.step demoL (.destroy 0) = .ok (w', .unit) := by
  obtain ⟨w, hV, l, hl, _⟩ := demoArr_valid
  obtain ⟨a, ha, _⟩ := hl.exists
  obtain ⟨w', b, h1, _⟩ := C52_destroy_partial demoL_WF 0 hV ha
  exact ⟨w, w', h1⟩

/-- Storage in which no object with a destructor is alive. -/
def Clean (b : Block V) : Prop := ∀ i, i < b.size → (b.get i).nonTriv = false

theorem ArrR.destroy_clean (hL : L.WF) {w w' : ArrWorld V} {σ : ArrSpec.State V} (hR : ArrR L w σ) {s : Nat} {out : ArrOut V}
    (h : w.step L (.destroy s) = .ok (w', out)) : ∃ b, w'.gone = b :: w.gone ∧ Clean b := by
  simp only [ArrWorld.step, ArrWorld.withA] at h
  cases hs : σ s with
  | none => rw [hR.absent hs] at h; cases h
  | some p =>
    obtain ⟨N, l⟩ := p
    obtain ⟨a, ha, hrep⟩ := hR.arr hs
    obtain ⟨c, hv, _⟩ := hrep.cells
    obtain ⟨b, d1, d2, d3⟩ := SArr.dtor_ok (n := a.n) hL hrep.size hv
    have e : (⟨N, a.n, a.data⟩ : SArr V) = a := by rw [← hrep.cap]
    rw [e] at d1
    simp only [ha, d1] at h
    cases h
    refine ⟨b, rfl, fun i hi => ?_⟩
    rw [d2, hrep.size] at hi
    obtain ⟨r, m, k, i', j, hm, hk, hi', hj, e⟩ := slot_cover hL hi
    have := d3.hnone r m k i' hm hk hi' rfl j hj
    rw [e]; exact this

/-- Only the destructor and constructors which throw release storage. -/
theorem ArrWorld.step_gone {w w' : ArrWorld V} {op : ArrOp V} {out : ArrOut V} (h : w.step L op = .ok (w', out)) :
    w'.gone = w.gone ∨ (∃ s, op = .destroy s) ∨ ∃ s N t cst e, op = .copy s N t cst ∧ out = .threw e := by
  have hm : ∀ (s : Nat) (r : Res (SArr V) Unit), w.modify s r = .ok (w', out) → w'.gone = w.gone := by
    intro s r h
    cases r <;> simp only [ArrWorld.modify] at h <;> cases h <;> rfl
  have hwr : ∀ (s : Nat) (a : SArr V) (r : Except UB (Block V)), w.wr s a r = .ok (w', out) → w'.gone = w.gone := by
    intro s a r h
    cases r <;> simp only [ArrWorld.wr] at h <;> cases h <;> rfl
  have hro : ∀ {α : Type} (f : α → ArrOut V) (r : Except UB α), w.ro f r = .ok (w', out) → w'.gone = w.gone := by
    intro α f r h
    cases r <;> simp only [ArrWorld.ro] at h <;> cases h <;> rfl
  cases op with
  | destroy s => exact .inr (.inl ⟨s, rfl⟩)
  | copy s N t cst =>
    simp only [ArrWorld.step, ArrWorld.withA] at h
    split at h
    · cases h
    · split at h
      · cases h
      · split at h
        · cases h; exact .inl rfl
        · split at h
          · cases h
          · split at h
            · cases h; exact .inl rfl
            · cases h; exact .inr (.inr ⟨s, N, t, cst, _, rfl, rfl⟩)
            · cases h
  | new s N n v =>
    simp only [ArrWorld.step] at h
    split at h
    · cases h
    · split at h
      · cases h; exact .inl rfl
      · cases h
  | assign s t cst =>
    simp only [ArrWorld.step, ArrWorld.withA] at h
    split at h
    · cases h
    · split at h
      · cases h
      · split at h
        · cases h; exact .inl rfl
        · exact .inl (hm _ _ h)
  | set s i c =>
    simp only [ArrWorld.step, ArrWorld.withA] at h
    split at h
    · cases h
    · exact .inl (hwr _ _ _ h)
  | get s i t =>
    simp only [ArrWorld.step, ArrWorld.withA] at h
    split at h
    · cases h
    · exact .inl (hro _ _ h)
  | poke s i r k v =>
    simp only [ArrWorld.step, ArrWorld.withA] at h
    split at h
    · cases h
    · split at h
      · cases h
      · exact .inl (hwr _ _ _ h)
  | peek s i r k =>
    simp only [ArrWorld.step, ArrWorld.withA] at h
    split at h
    · cases h
    · split at h
      · cases h
      · exact .inl (hro _ _ h)
  | push s c =>
    simp only [ArrWorld.step, ArrWorld.withA] at h
    split at h
    · cases h
    · exact .inl (hm _ _ h)
  | pop s =>
    simp only [ArrWorld.step, ArrWorld.withA] at h
    split at h
    · cases h
    · exact .inl (hm _ _ h)
  | clear s =>
    simp only [ArrWorld.step, ArrWorld.withA] at h
    split at h
    · cases h
    · cases h; exact .inl rfl
  | back s t =>
    simp only [ArrWorld.step, ArrWorld.withA] at h
    split at h
    · cases h
    · exact .inl (hro _ _ h)
  | load s t j num off =>
    simp only [ArrWorld.step, ArrWorld.withA] at h
    split at h
    · cases h
    · split at h
      · cases h
      · exact .inl (hm _ _ h)
  | append s t j num =>
    simp only [ArrWorld.step, ArrWorld.withA] at h
    split at h
    · cases h
    · split at h
      · cases h
      · exact .inl (hm _ _ h)
  | size s =>
    simp only [ArrWorld.step, ArrWorld.withA] at h
    split at h <;> cases h
    exact .inl rfl
  | capacity s =>
    simp only [ArrWorld.step, ArrWorld.withA] at h
    split at h <;> cases h
    exact .inl rfl
  | byteSize s =>
    simp only [ArrWorld.step, ArrWorld.withA] at h
    split at h <;> cases h
    exact .inl rfl
  | iter s t =>
    simp only [ArrWorld.step, ArrWorld.withA] at h
    split at h
    · cases h
    · exact .inl (hro _ _ h)
  | swap s t =>
    simp only [ArrWorld.step, ArrWorld.withA] at h
    split at h
    · cases h
    · split at h
      · cases h
      · cases h; exact .inl rfl

/-- C52 for whole programs: unless a constructor throws, no object is alive in storage which has been released. Missing: constructors which
    throw (C52_false). -/
theorem C52_released_partial (hL : L.WF) (dv : V) (ops : List (ArrOp V)) {σ : ArrSpec.State V} {outs : List (ArrOut V)} {w : ArrWorld V}
    (hs : ArrSpec.run L ArrSpec.start ops = some (σ, outs)) (hw : ArrWorld.init.run L ops = .ok (w, outs))
    (hc : ∀ p ∈ ops.zip outs, ∀ s N t cst e, p ≠ (.copy s N t cst, .threw e)) :
    ∀ b ∈ w.gone, ∀ i, i < b.size → (b.get i).nonTriv = false := by
  have go : ∀ (ops : List (ArrOp V)) (w0 w : ArrWorld V) (σ0 σ : ArrSpec.State V) (outs : List (ArrOut V)), ArrR L w0 σ0 →
      (∀ b ∈ w0.gone, Clean b) → ArrSpec.run L σ0 ops = some (σ, outs) → w0.run L ops = .ok (w, outs) →
      (∀ p ∈ ops.zip outs, ∀ s N t cst e, p ≠ (.copy s N t cst, .threw e)) → ∀ b ∈ w.gone, Clean b := by
    intro ops
    induction ops with
    | nil =>
      intro w0 w σ0 σ outs hR hg hs hw _
      simp only [ArrWorld.run] at hw
      cases hw
      exact hg
    | cons op ops ih =>
      intro w0 w σ0 σ outs hR hg hs hw hc
      simp only [ArrSpec.run] at hs
      cases h1 : ArrSpec.step L σ0 op with
      | none => rw [h1] at hs; cases hs
      | some p =>
        obtain ⟨σ1, out⟩ := p
        simp only [h1] at hs
        cases h2 : ArrSpec.run L σ1 ops with
        | none => rw [h2] at hs; cases hs
        | some q =>
          obtain ⟨σ2, outs2⟩ := q
          simp only [h2] at hs
          cases hs
          obtain ⟨w1, e1, r1⟩ := arr_step_refines hL dv hR h1
          simp only [ArrWorld.run, e1] at hw
          cases h3 : w1.run L ops with
          | error u => rw [h3] at hw; cases hw
          | ok p3 =>
            obtain ⟨w2, o3⟩ := p3
            simp only [h3] at hw
            cases hw
            refine ih w1 w σ1 σ outs2 r1 ?_ h2 h3 fun p hp => hc p (by simp [hp])
            rcases ArrWorld.step_gone e1 with h | ⟨s, rfl⟩ | ⟨s, N, t, cst, e, rfl, rfl⟩
            · rw [h]; exact hg
            · obtain ⟨b, hb, hcl⟩ := ArrR.destroy_clean hL hR e1
              rw [hb]
              intro b' hb'
              rcases List.mem_cons.1 hb' with rfl | hb'
              · exact hcl
              · exact hg b' hb'
            · exact absurd rfl (hc _ (by simp) s N t cst e)
  exact go ops _ w _ σ outs (ArrR.init L) (by simp [ArrWorld.init]) hs hw hc

example : ∃ (w : ArrWorld Int) (outs : List (ArrOut Int)),
    ArrWorld.init.run demoL [.new 0 4 1 demoCell, .copy 1 6 0 false, .destroy 0, .destroy 1] = .ok (w, outs) ∧
    ∀ b ∈ w.gone, ∀ i, i < b.size → (b.get i).nonTriv = false := by
  obtain ⟨w, h1, hR⟩ := arr_run_refines (V := Int) demoL_WF 0 [.new 0 4 1 demoCell, .copy 1 6 0 false, .destroy 0, .destroy 1] (ArrR.init demoL)
    (σ' := _) (outs := [.unit, .unit, .unit, .unit]) rfl
  exact ⟨w, _, h1, C52_released_partial demoL_WF 0 _ rfl h1 (by simp)⟩

/-- C52 is false for constructors which throw: the member objects which were already constructed are not destroyed, because
    the destructor of an array which has not been completely constructed does not run. -/
theorem C52_false (hL : L.WF) (dv : V) (hnt : ∃ m ∈ L, m.ty.triv = false) {w : ArrWorld V} {s t N M : Nat}
    {k : List (Cell V)} (hs : w.a s = none) (ht : ListIs L w t M k) (hbig : N < k.length) (hM : k.length ≤ M) (hN : 0 < N)
    (cst : Bool) :
    ∃ w' b i, w.step L (.copy s N t cst) = .ok (w', .threw SArr.tooLarge) ∧ w'.a = w.a ∧ w'.gone = b :: w.gone ∧
      i < b.size ∧ (b.get i).nonTriv = true := by
  obtain ⟨o, ho, h1', h2'⟩ := ht.exists
  have hb : ¬ (cst = true ∧ N = o.N) := by omega
  have : o.n > N := by omega
  obtain ⟨b, c1, c2, c3⟩ := SArr.constructAll_ok hL dv N
  obtain ⟨m, hm, hmt⟩ := hnt
  obtain ⟨r, hr⟩ := List.mem_iff_getElem?.mp hm
  have hP : 0 < (SArr.dim N).prod := by rw [SArr.prod_dim]; exact hN
  have hh := c3.hsome r m 0 0 _ hr (hL.elems_pos hr) hP rfl 0 (hL.size_pos hr)
  have hbound := c3.bound hr (hL.elems_pos hr) hP
  refine ⟨⟨w.a, b :: w.gone⟩, b, slot (SArr.dim N).prod (offset L r) m.ty.size 0 0, ?_, rfl, rfl, ?_, ?_⟩
  · simp only [ArrWorld.step, hs, ArrWorld.withA, ho, if_neg hb, c1, SArr.copyIn, if_pos this]
  · have := hL.size_pos hr; omega
  · rw [Nat.add_zero] at hh; rw [hh]; simp [MByte.nonTriv, hmt]

example : ∃ w w' : ArrWorld Int, ∃ b i, w.step demoL (.copy 2 2 0 false) = .ok (w', .threw SArr.tooLarge) ∧ w'.a = w.a ∧
    w'.gone = b :: w.gone ∧ i < b.size ∧ (b.get i).nonTriv = true := by
  obtain ⟨w, ⟨l, h0, hl⟩, h1, h2⟩ := demo_too_large
  obtain ⟨w', b, i, h⟩ := C52_false demoL_WF 0 ⟨⟨⟨32, false⟩, none, -1⟩, by simp [demoL], rfl⟩ h2 h0 (N := 2) (by omega)
    (by omega) (by omega) false
  exact ⟨w, w', b, i, h⟩

end
end LFA.Props
