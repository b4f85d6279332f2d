import Verif.Share
import Verif.Props.Layout
import Verif.Props.SoaArray
import Verif.Props.SoaVector
import Mathlib.Logic.Function.Iterate

/-
  C70: threads which share soa_arrays and soa_vectors. As long as no thread writes what another one accesses, each thread observes what
  it would observe alone, in every interleaving.
-/
set_option linter.unusedSectionVars false
set_option linter.unusedVariables false
namespace LFA
namespace Share

/-! ### Vocabulary -/
section
variable {P V ρ : Type} {loc : P → Loc}

/-- A thread which runs alone: result and new values. -/
def alone (loc : P → Loc) (σ : Loc → V) : Prog P V ρ → ρ × (Loc → V)
  | .ret v => (v, σ)
  | .tau c => alone loc σ c
  | .peek p c => alone loc σ (c (σ (loc p)))
  | .poke p v c => alone loc (fun l => if l = loc p then v else σ l) c

/-- The number of steps of a thread which runs alone. -/
def accesses (loc : P → Loc) (σ : Loc → V) : Prog P V ρ → Nat
  | .ret _ => 0
  | .tau c => accesses loc σ c + 1
  | .peek p c => accesses loc σ (c (σ (loc p))) + 1
  | .poke p v c => accesses loc (fun l => if l = loc p then v else σ l) c + 1

/-- Whatever the thread reads, it accesses elements only, writes to locations of thread `i` only, and reads from these and from locations
    which nobody writes to. -/
def Respects (loc : P → Loc) (inside : Loc → Prop) (own : Loc → Option Nat) (i : Nat) : Prog P V ρ → Prop
  | .ret _ => True
  | .tau c => Respects loc inside own i c
  | .peek p c => inside (loc p) ∧ (own (loc p) = none ∨ own (loc p) = some i) ∧ ∀ v, Respects loc inside own i (c v)
  | .poke p _ c => inside (loc p) ∧ own (loc p) = some i ∧ Respects loc inside own i c

/-! ### Any kind of container -/

/-- A step of a thread which runs alone. -/
def stepAlone (loc : P → Loc) (q : (Loc → V) × Prog P V ρ) : (Loc → V) × Prog P V ρ :=
  match q.2 with
  | .ret _ => q
  | .tau c => (q.1, c)
  | .peek p c => (q.1, c (q.1 (loc p)))
  | .poke p v c => (fun l => if l = loc p then v else q.1 l, c)

theorem stepAlone_all (σ : Loc → V) (t : Prog P V ρ) (n : Nat) (hn : accesses loc σ t ≤ n) :
    (stepAlone loc)^[n] (σ, t) = ((alone loc σ t).2, .ret (alone loc σ t).1) := by
  induction t generalizing σ n with
  | ret v =>
    have : (stepAlone loc)^[n] ((σ, .ret v) : (Loc → V) × Prog P V ρ) = (σ, .ret v) := Function.iterate_fixed rfl n
    simpa [alone] using this
  | tau c ih =>
    cases n with
    | zero => simp [accesses] at hn
    | succ n => rw [Function.iterate_succ_apply]; exact ih σ n (by simpa [accesses] using hn)
  | peek p c ih =>
    cases n with
    | zero => simp [accesses] at hn
    | succ n => rw [Function.iterate_succ_apply]; exact ih _ σ n (by simpa [accesses] using hn)
  | poke p v c ih =>
    cases n with
    | zero => simp [accesses] at hn
    | succ n => rw [Function.iterate_succ_apply]; exact ih _ n (by simpa [accesses] using hn)

theorem stepAlone_respects {inside : Loc → Prop} {own : Loc → Option Nat} {i : Nat} (σ : Loc → V) (t : Prog P V ρ)
    (h : Respects loc inside own i t) (n : Nat) :
    Respects loc inside own i ((stepAlone loc)^[n] (σ, t)).2 ∧ ∀ l, own l ≠ some i → ((stepAlone loc)^[n] (σ, t)).1 l = σ l := by
  induction n with
  | zero => exact ⟨h, fun _ _ => rfl⟩
  | succ n ih =>
    rw [Function.iterate_succ_apply']
    generalize (stepAlone loc)^[n] (σ, t) = q at ih
    obtain ⟨h1, h2⟩ := ih
    unfold stepAlone
    cases hq : q.2 with
    | ret v => rw [hq] at h1; simp only [hq]; exact ⟨trivial, h2⟩
    | tau c => rw [hq] at h1; exact ⟨h1, h2⟩
    | peek p c => rw [hq] at h1; exact ⟨h1.2.2 _, h2⟩
    | poke p v c =>
      rw [hq] at h1
      refine ⟨h1.2.2, fun l hl => ?_⟩
      have : l ≠ loc p := by rintro rfl; exact hl h1.2.1
      simp only [if_neg this]
      exact h2 l hl

/-- Threads on containers whose states `w` show values: `I w val`. -/
theorem exec_ok {W : Type} {rd : W → P → Except UB V} {wr : W → P → V → Except UB W} {I : W → (Loc → V) → Prop} {inside : Loc → Prop}
    (hrd : ∀ w val p, I w val → inside (loc p) → rd w p = .ok (val (loc p)))
    (hwr : ∀ w val p v, I w val → inside (loc p) → ∃ w' val', wr w p v = .ok w' ∧ I w' val' ∧ ∀ l, inside l → val' l = if l = loc p then v else val l)
    {own : Loc → Option Nat} {σ : Loc → V} {T0 : Nat → Prog P V ρ} (hT : ∀ i, Respects loc inside own i (T0 i)) (sched : List Nat)
    (n : Nat → Nat) {w : W} {val : Loc → V} (hI : I w val) {T : Nat → Prog P V ρ} (hprog : ∀ i, T i = ((stepAlone loc)^[n i] (σ, T0 i)).2)
    (hval : ∀ l, inside l → val l = match own l with
      | none => σ l
      | some i => ((stepAlone loc)^[n i] (σ, T0 i)).1 l) :
    ∃ w' T' val', exec rd wr w T sched = .ok (w', T') ∧ I w' val' ∧
      (∀ i, T' i = ((stepAlone loc)^[n i + sched.count i] (σ, T0 i)).2) ∧
      ∀ l, inside l → val' l = match own l with
        | none => σ l
        | some i => ((stepAlone loc)^[n i + sched.count i] (σ, T0 i)).1 l := by
  induction sched generalizing n w val T with
  | nil => exact ⟨w, T, val, rfl, hI, hprog, hval⟩
  | cons i sched ih =>
    -- after the step of thread `i`
    have key : ∃ w1 val1 t, advance rd wr w (T i) = .ok (w1, t) ∧ I w1 val1 ∧
        t = ((stepAlone loc)^[n i + 1] (σ, T0 i)).2 ∧ ∀ l, inside l → val1 l = match own l with
          | none => σ l
          | some j => ((stepAlone loc)^[if j = i then n j + 1 else n j] (σ, T0 j)).1 l := by
      obtain ⟨r1, r2⟩ := stepAlone_respects σ (T0 i) (hT i) (n i)
      rw [Function.iterate_succ_apply', hprog i]
      have hval' : ∀ l, inside l → own l = none ∨ own l = some i → val l = ((stepAlone loc)^[n i] (σ, T0 i)).1 l := by
        intro l hl ho
        rw [hval l hl]
        rcases ho with ho | ho
        · rw [ho, r2 l (by rw [ho]; exact fun h => nomatch h)]
        · rw [ho]
      have hval2 : ∀ l, inside l → (own l = some i → val l = (stepAlone loc ((stepAlone loc)^[n i] (σ, T0 i))).1 l) →
          val l = match own l with
          | none => σ l
          | some j => ((stepAlone loc)^[if j = i then n j + 1 else n j] (σ, T0 j)).1 l := by
        intro l hl h1
        cases ho : own l with
        | none => simp only; rw [hval l hl, ho]
        | some j =>
          simp only
          by_cases hj : j = i
          · subst hj
            rw [if_pos rfl, Function.iterate_succ_apply', h1 ho]
          · rw [if_neg hj, hval l hl, ho]
      generalize hq : (stepAlone loc)^[n i] (σ, T0 i) = q at r1 r2 hval' hval2
      cases hq2 : q.2 with
      | ret v =>
        refine ⟨w, val, .ret v, rfl, hI, by simp [stepAlone, hq2], fun l hl => hval2 l hl fun ho => ?_⟩
        rw [hval' l hl (.inr ho)]; simp [stepAlone, hq2]
      | tau c =>
        refine ⟨w, val, c, rfl, hI, by simp [stepAlone, hq2], fun l hl => hval2 l hl fun ho => ?_⟩
        rw [hval' l hl (.inr ho)]; simp [stepAlone, hq2]
      | peek p c =>
        rw [hq2] at r1
        refine ⟨w, val, c (val (loc p)), ?_, hI, ?_, fun l hl => hval2 l hl fun ho => ?_⟩
        · simp only [advance, hrd w val p hI r1.1]
        · simp only [stepAlone, hq2, hval' _ r1.1 r1.2.1]
        · rw [hval' l hl (.inr ho)]; simp [stepAlone, hq2]
      | poke p v c =>
        rw [hq2] at r1
        obtain ⟨w1, val1, k1, k2, k4⟩ := hwr w val p v hI r1.1
        refine ⟨w1, val1, c, ?_, k2, by simp [stepAlone, hq2], fun l hl => ?_⟩
        · simp only [advance, k1]
        · rw [k4 l hl]
          by_cases hl' : l = loc p
          · subst hl'
            rw [if_pos rfl, r1.2.1]
            simp only [if_true]
            rw [Function.iterate_succ_apply', hq]
            simp [stepAlone, hq2]
          · rw [if_neg hl']
            refine hval2 l hl fun ho => ?_
            rw [hval' l hl (.inr ho)]; simp [stepAlone, hq2, hl']
    obtain ⟨w1, val1, t, k1, k2, k4, k5⟩ := key
    have hcount : ∀ j, (if j = i then n j + 1 else n j) + sched.count j = n j + (i :: sched).count j := by
      intro j
      rw [List.count_cons]
      by_cases hj : j = i
      · subst hj; simp; omega
      · have : ¬ (i == j) = true := by simp; exact fun h => hj h.symm
        simp [hj, this]
    obtain ⟨w2, T2, val2, m1, m2, m4, m5⟩ := ih (fun j => if j = i then n j + 1 else n j) k2 (T := World.upd T i t) (by
      intro j
      by_cases hj : j = i
      · subst hj; rw [upd_self, k4, if_pos rfl]
      · rw [upd_ne _ _ hj, hprog j, if_neg hj]) k5
    refine ⟨w2, T2, val2, ?_, m2, fun j => by rw [m4 j, hcount j], fun l hl => ?_⟩
    · simp only [exec, k1, m1]
    · rw [m5 l hl]
      cases own l with
      | none => rfl
      | some j => simp only; rw [hcount j]

/-- The same, from the beginning on. -/
theorem exec_start {W : Type} {rd : W → P → Except UB V} {wr : W → P → V → Except UB W} {I : W → (Loc → V) → Prop} {inside : Loc → Prop}
    (hrd : ∀ w val p, I w val → inside (loc p) → rd w p = .ok (val (loc p)))
    (hwr : ∀ w val p v, I w val → inside (loc p) → ∃ w' val', wr w p v = .ok w' ∧ I w' val' ∧ ∀ l, inside l → val' l = if l = loc p then v else val l)
    {own : Loc → Option Nat} {T : Nat → Prog P V ρ} (hT : ∀ i, Respects loc inside own i (T i)) (sched : List Nat) {w : W} {σ val : Loc → V}
    (hI : I w val) (hσ : ∀ l, inside l → val l = σ l) :
    ∃ w' T' val', exec rd wr w T sched = .ok (w', T') ∧ I w' val' ∧
      (∀ i, accesses loc σ (T i) ≤ sched.count i → T' i = .ret (alone loc σ (T i)).1 ∧
        ∀ l, inside l → own l = some i → val' l = (alone loc σ (T i)).2 l) ∧
      ∀ l, inside l → own l = none → val' l = σ l := by
  obtain ⟨w', T', val', k1, k2, k3, k4⟩ := exec_ok (σ := σ) hrd hwr hT sched (fun _ => 0) hI (T := T) (fun _ => rfl) (by
    intro l hl
    rw [hσ l hl]
    cases own l <;> rfl)
  refine ⟨w', T', val', k1, k2, fun i hi => ?_, fun l hl ho => ?_⟩
  · have hall := stepAlone_all (loc := loc) σ (T i) (0 + sched.count i) (by omega)
    refine ⟨by rw [k3 i, hall], fun l hl ho => ?_⟩
    have := k4 l hl
    rw [ho] at this
    simp only [hall] at this
    exact this
  · have := k4 l hl
    rwa [ho] at this

end

/-! ### soa_array -/
namespace Arr
variable {V : Type} [DecidableEq V] {L : Layout V} {dv : V} {ρ : Type}

/-- The member exists. -/
def Inside (L : Layout V) (w : ArrWorld V) (l : Loc) : Prop :=
  ∃ n m, w.step L (.size l.s) = .ok (w, .nat n) ∧ L[l.r]? = some m ∧ l.k < m.elems ∧ 0 ≤ l.i ∧ l.i < n

/-- Reading the member yields `v`. -/
def ValueIs (L : Layout V) (w : ArrWorld V) (l : Loc) (v : V) : Prop := w.step L (.peek l.s l.i l.r l.k) = .ok (w, .val v)

/-- The value of a member. -/
def valA (dv : V) (σ : ArrSpec.State V) (l : Loc) : V :=
  match σ l.s with
  | some (_, x) => ((x[l.i.toNat]?).map fun c => c l.r l.k).getD dv
  | none => dv

theorem inside_iff {w : ArrWorld V} {σ : ArrSpec.State V} (hR : ArrR L w σ) (l : Loc) :
    Inside L w l ↔ ∃ N x m c, σ l.s = some (N, x) ∧ L[l.r]? = some m ∧ l.k < m.elems ∧ 0 ≤ l.i ∧ x[l.i.toNat]? = some c := by
  constructor
  · rintro ⟨n, m, h1, h2, h3, h4, h5⟩
    cases hs : σ l.s with
    | none => simp only [ArrWorld.step, ArrWorld.withA, hR.absent hs] at h1; cases h1
    | some q =>
      obtain ⟨N, x⟩ := q
      obtain ⟨a, ha, hrep⟩ := hR.arr hs
      simp only [ArrWorld.step, ArrWorld.withA, ha, hrep.len] at h1
      have hn : x.length = n := by injection h1 with h1; injection h1 with _ h1; injection h1
      have hlt : l.i.toNat < x.length := by omega
      exact ⟨N, x, m, x[l.i.toNat], rfl, h2, h3, h4, List.getElem?_eq_getElem hlt⟩
  · rintro ⟨N, x, m, c, hs, h2, h3, h4, h5⟩
    obtain ⟨a, ha, hrep⟩ := hR.arr hs
    have hlt := (List.getElem?_eq_some_iff.1 h5).1
    exact ⟨x.length, m, by simp only [ArrWorld.step, ArrWorld.withA, ha, hrep.len], h2, h3, h4, by omega⟩

theorem peek_ok (hL : L.WF) {w : ArrWorld V} {σ : ArrSpec.State V} (hR : ArrR L w σ) {l : Loc} (hl : Inside L w l) : ValueIs L w l (valA dv σ l) := by
  obtain ⟨N, x, m, c, hs, h2, h3, h4, h5⟩ := (inside_iff hR l).1 hl
  obtain ⟨a, ha, hrep⟩ := hR.arr hs
  have hi : l.i = (l.i.toNat : Nat) := by omega
  have := hrep.peekAt hL h5 h2 h3
  rw [← hi] at this
  simp only [ValueIs, ArrWorld.step, ArrWorld.withA, ha, h2, this, ArrWorld.ro, valA, hs, h5, Option.map_some, Option.getD_some]

theorem spec_snoc {σ σ' σ'' : ArrSpec.State V} {ops : List (ArrOp V)} {op : ArrOp V} {outs : List (ArrOut V)} {out : ArrOut V}
    (h : ArrSpec.run L σ ops = some (σ', outs)) (h' : ArrSpec.step L σ' op = some (σ'', out)) :
    ArrSpec.run L σ (ops ++ [op]) = some (σ'', outs ++ [out]) := by
  induction ops generalizing σ outs with
  | nil => cases h; simp only [List.nil_append, ArrSpec.run, h']
  | cons o ops ih =>
    simp only [ArrSpec.run, List.cons_append] at h ⊢
    cases hs : ArrSpec.step L σ o with
    | none => rw [hs] at h; cases h
    | some p =>
      obtain ⟨σ1, o1⟩ := p
      rw [hs] at h
      simp only at h ⊢
      cases hr : ArrSpec.run L σ1 ops with
      | none => rw [hr] at h; cases h
      | some q =>
        rw [hr] at h
        cases h
        rw [ih hr]
        rfl

theorem run_snoc {w w' w'' : ArrWorld V} {ops : List (ArrOp V)} {op : ArrOp V} {outs : List (ArrOut V)} {out : ArrOut V}
    (h : w.run L ops = .ok (w', outs)) (h' : w'.step L op = .ok (w'', out)) : w.run L (ops ++ [op]) = .ok (w'', outs ++ [out]) := by
  induction ops generalizing w outs with
  | nil => cases h; simp only [List.nil_append, ArrWorld.run, h']
  | cons o ops ih =>
    simp only [ArrWorld.run, List.cons_append] at h ⊢
    cases hs : w.step L o with
    | error u => rw [hs] at h; cases h
    | ok p =>
      obtain ⟨w1, o1⟩ := p
      rw [hs] at h
      simp only at h ⊢
      cases hr : w1.run L ops with
      | error u => rw [hr] at h; cases h
      | ok q =>
        rw [hr] at h
        cases h
        rw [ih hr]
        rfl

/-- All arrays have the same capacities and sizes. -/
def Same (L : Layout V) (w w' : ArrWorld V) : Prop :=
  ∀ s n, (w'.step L (.capacity s) = .ok (w', .nat n) ↔ w.step L (.capacity s) = .ok (w, .nat n)) ∧
    (w'.step L (.size s) = .ok (w', .nat n) ↔ w.step L (.size s) = .ok (w, .nat n))

theorem Same.inside {w w' : ArrWorld V} (h : Same L w w') (l : Loc) : Inside L w' l ↔ Inside L w l := by
  unfold Inside
  simp only [(h _ _).2]

theorem Same.trans {w w' w'' : ArrWorld V} (h : Same L w w') (h' : Same L w' w'') : Same L w w'' :=
  fun s n => ⟨(h' s n).1.trans (h s n).1, (h' s n).2.trans (h s n).2⟩

theorem Same.of {w w' : ArrWorld V} {σ σ' : ArrSpec.State V} (hR : ArrR L w σ) (hR' : ArrR L w' σ')
    (h : ∀ s, (σ' s).map (fun q => (q.1, q.2.length)) = (σ s).map (fun q => (q.1, q.2.length))) : Same L w w' := by
  intro s n
  have hs := h s
  cases h1 : σ s with
  | none =>
    rw [h1] at hs
    have h2 : σ' s = none := by simpa using hs
    simp [ArrWorld.step, ArrWorld.withA, hR.absent h1, hR'.absent h2]
  | some q =>
    rw [h1] at hs
    obtain ⟨q', h2, hq⟩ := Option.map_eq_some_iff.1 hs
    obtain ⟨N, x⟩ := q
    obtain ⟨N', x'⟩ := q'
    simp only [Prod.mk.injEq] at hq
    obtain ⟨a, ha, ra⟩ := hR.arr h1
    obtain ⟨a', ha', ra'⟩ := hR'.arr h2
    simp [ArrWorld.step, ArrWorld.withA, ha, ha', ra.cap, ra.len, ra'.cap, ra'.len, hq]

/-- A state of a program, and the specification of this state. -/
def State (L : Layout V) (w : ArrWorld V) (σ : ArrSpec.State V) : Prop :=
  ∃ ops outs, ArrSpec.run L ArrSpec.start ops = some (σ, outs) ∧ ArrWorld.init.run L ops = .ok (w, outs)

theorem State.refines (hL : L.WF) (dv : V) {w : ArrWorld V} {σ : ArrSpec.State V} (h : State L w σ) : ArrR L w σ := by
  obtain ⟨ops, outs, h1, h2⟩ := h
  obtain ⟨w', e, hR⟩ := arr_run_refines hL dv ops (ArrR.init L) h1
  rw [h2] at e
  cases e
  exact hR

theorem poke_ok (hL : L.WF) {w : ArrWorld V} {σ : ArrSpec.State V} (hS : State L w σ) {l : Loc} (hl : Inside L w l) (v : V) :
    ∃ w' σ', w.step L (.poke l.s l.i l.r l.k v) = .ok (w', .unit) ∧ State L w' σ' ∧ Same L w w' ∧
      ∀ l', Inside L w l' → valA dv σ' l' = if l' = l then v else valA dv σ l' := by
  have hR := hS.refines hL dv
  obtain ⟨N, x, m, c, hs, h2, h3, h4, h5⟩ := (inside_iff hR l).1 hl
  have hstep : ArrSpec.step L σ (.poke l.s l.i l.r l.k v) = some (ArrWorld.upd σ l.s (some (N, x.set l.i.toNat (c.set l.r l.k v))), .unit) := by
    simp only [ArrSpec.step, hs, h2, h5]
    rw [if_neg (by push Not; exact ⟨h4, h3⟩)]
  obtain ⟨w', k1, hR'⟩ := arr_step_refines hL dv hR hstep
  have hlt := (List.getElem?_eq_some_iff.1 h5).1
  have hcell : ∀ l' : Loc, l'.s = l.s → 0 ≤ l'.i → (x.set l.i.toNat (c.set l.r l.k v))[l'.i.toNat]? =
      if l'.i = l.i then some (c.set l.r l.k v) else x[l'.i.toNat]? := by
    intro l' _ h0
    by_cases e : l'.i = l.i
    · rw [if_pos e, e, List.getElem?_set_self hlt]
    · rw [if_neg e, List.getElem?_set_ne (by omega)]
  refine ⟨w', ArrWorld.upd σ l.s (some (N, x.set l.i.toNat (c.set l.r l.k v))), k1, ?_, Same.of hR hR' fun s' => ?_, fun l' hl' => ?_⟩
  · obtain ⟨ops, outs, a1, a2⟩ := hS
    exact ⟨_, _, spec_snoc a1 hstep, run_snoc a2 k1⟩
  · by_cases es : s' = l.s
    · subst es
      simp only [ArrWorld.upd, if_true, hs, Option.map_some, List.length_set]
    · simp only [ArrWorld.upd, if_neg es]
  · obtain ⟨N', x', m', c', q1, q2, q3, q4, q5⟩ := (inside_iff hR l').1 hl'
    by_cases es : l'.s = l.s
    · rw [es, hs] at q1
      cases q1
      simp only [valA, ArrWorld.upd, es, hs, if_true, hcell l' es q4]
      by_cases ei : l'.i = l.i
      · rw [if_pos ei]
        simp only [Option.map_some, Option.getD_some, Cell.set, ei, h5]
        by_cases ek : l'.r = l.r ∧ l'.k = l.k
        · have : l' = l := by cases l'; cases l; simp_all
          rw [if_pos ek, if_pos this]
        · have : l' ≠ l := fun h => ek (by rw [h]; exact ⟨rfl, rfl⟩)
          rw [if_neg ek, if_neg this]
      · have : l' ≠ l := fun h => ei (by rw [h])
        rw [if_neg ei, if_neg this]
    · have : l' ≠ l := fun h => es (by rw [h])
      rw [if_neg this]
      simp only [valA, ArrWorld.upd, if_neg es]

/-- C70 for soa_array: in every interleaving each thread behaves as if it were alone. -/
theorem C70_array (hL : L.WF) {w : ArrWorld V} (hV : Props.ArrValid L w) (own : Loc → Option Nat) (T : Nat → Prog Loc V ρ)
    (hT : ∀ i, Respects id (Inside L w) own i (T i)) (σ : Loc → V) (hσ : ∀ l, Inside L w l → ValueIs L w l (σ l)) (sched : List Nat) :
    ∃ w' T', exec L w T sched = .ok (w', T') ∧
      (∀ i, accesses id σ (T i) ≤ sched.count i → T' i = .ret (alone id σ (T i)).1 ∧
        ∀ l, Inside L w l → own l = some i → ValueIs L w' l ((alone id σ (T i)).2 l)) ∧
      (∀ l, Inside L w l → own l = none → ValueIs L w' l (σ l)) ∧ Same L w w' ∧ Props.ArrValid L w' := by
  obtain ⟨ops, τ, outs, a1, a2⟩ := hV
  have hS : State L w τ := ⟨ops, outs, a1, a2⟩
  obtain ⟨w', T', val', k1, ⟨τ', hS', hin, rfl⟩, k3, k4⟩ := exec_start (loc := id) (rd := rd L) (wr := wr L)
    (I := fun w' val => ∃ τ', State L w' τ' ∧ Same L w w' ∧ val = valA (σ ⟨0, 0, 0, 0⟩) τ') (inside := Inside L w) (by
      rintro w' val p ⟨τ', hS', hin, rfl⟩ hp
      have := peek_ok (dv := σ ⟨0, 0, 0, 0⟩) hL (hS'.refines hL (σ ⟨0, 0, 0, 0⟩)) ((hin.inside _).2 hp)
      unfold ValueIs at this
      simp only [rd, id] at this ⊢
      rw [this]) (by
      rintro w' val p v ⟨τ', hS', hin, rfl⟩ hp
      obtain ⟨w2, τ2, q1, q2, q3, q4⟩ := poke_ok (dv := σ ⟨0, 0, 0, 0⟩) hL hS' ((hin.inside _).2 hp) v
      refine ⟨w2, _, ?_, ⟨τ2, q2, hin.trans q3, rfl⟩, fun l hl => q4 l ((hin.inside l).2 hl)⟩
      simp only [wr, id] at q1 ⊢
      rw [q1]) hT sched ⟨τ, hS, fun _ _ => ⟨Iff.rfl, Iff.rfl⟩, rfl⟩ (σ := σ) (by
      intro l hl
      have h1 := peek_ok (dv := σ ⟨0, 0, 0, 0⟩) hL (hS.refines hL (σ ⟨0, 0, 0, 0⟩)) hl
      have h2 := hσ l hl
      unfold ValueIs at h1 h2
      rw [h1] at h2
      injection h2 with h2; injection h2 with _ h2; injection h2)
  have hR' := hS'.refines hL (σ ⟨0, 0, 0, 0⟩)
  have hat : ∀ l, Inside L w l → ValueIs L w' l (valA (σ ⟨0, 0, 0, 0⟩) τ' l) := fun l hl => peek_ok hL hR' ((hin.inside l).2 hl)
  refine ⟨w', T', k1, fun i hi => ⟨(k3 i hi).1, fun l hl ho => ?_⟩, fun l hl ho => ?_, hin, ?_⟩
  · have := hat l hl; rwa [(k3 i hi).2 l hl ho] at this
  · have := hat l hl; rwa [k4 l hl ho] at this
  · obtain ⟨ops', outs', b1, b2⟩ := hS'
    exact ⟨ops', τ', outs', b1, b2⟩

/-- C70 for soa_array: results do not depend on the interleaving. -/
theorem C70_array_deterministic (hL : L.WF) {w : ArrWorld V} (hV : Props.ArrValid L w) (own : Loc → Option Nat)
    (T : Nat → Prog Loc V ρ) (hT : ∀ i, Respects id (Inside L w) own i (T i)) (σ : Loc → V) (hσ : ∀ l, Inside L w l → ValueIs L w l (σ l))
    (sched sched' : List Nat) (h : ∀ i, accesses id σ (T i) ≤ sched.count i) (h' : ∀ i, accesses id σ (T i) ≤ sched'.count i) :
    ∃ w1 w2 T', exec L w T sched = .ok (w1, T') ∧ exec L w T sched' = .ok (w2, T') ∧
      ∀ l, Inside L w l → ∃ v, ValueIs L w1 l v ∧ ValueIs L w2 l v := by
  obtain ⟨w1, T1, a1, a2, a3, -⟩ := Arr.C70_array hL hV own T hT σ hσ sched
  obtain ⟨w2, T2, b1, b2, b3, -⟩ := Arr.C70_array hL hV own T hT σ hσ sched'
  have hTT : T1 = T2 := by
    funext i
    rw [(a2 i (h i)).1, (b2 i (h' i)).1]
  subst hTT
  refine ⟨w1, w2, T1, a1, b1, fun l hl => ?_⟩
  cases ho : own l with
  | none => exact ⟨_, a3 l hl ho, b3 l hl ho⟩
  | some i => exact ⟨_, (a2 i (h i)).2 l hl ho, (b2 i (h' i)).2 l hl ho⟩

/-- C70 for soa_array: different members of the same array share no byte (different arrays have different storage). -/
theorem C70_array_no_race (hL : L.WF) (dv : V) {w : ArrWorld V} (hV : Props.ArrValid L w) {p p' : Loc} (hp : Inside L w p)
    (hp' : Inside L w p') (hs : p.s = p'.s) (hne : p ≠ p') : ∃ addr n addr' n', bytes L w p = some (addr, n) ∧ bytes L w p' = some (addr', n') ∧
      ∀ byte : Int, ¬ (addr ≤ byte ∧ byte < addr + n ∧ addr' ≤ byte ∧ byte < addr' + n') := by
  obtain ⟨τ, hR⟩ := hV.refines hL dv
  obtain ⟨N, x, m, c, h1, h2, h3, h4, h5⟩ := (inside_iff hR p).1 hp
  obtain ⟨N', x', m', c', k1, k2, k3, k4, k5⟩ := (inside_iff hR p').1 hp'
  rw [← hs, h1] at k1
  cases k1
  obtain ⟨a, ha, hrep⟩ := hR.arr h1
  have hlt := (List.getElem?_eq_some_iff.1 h5).1
  have hlt' := (List.getElem?_eq_some_iff.1 k5).1
  have key : ∀ q : Loc, 0 ≤ q.i → ∀ mq, L[q.r]? = some mq → (SArr.acc N q.i).arrayRef L q.r mq q.k =
      ((slot (SArr.dim N).prod (offset L q.r) mq.ty.size q.k q.i.toNat : Nat) : Int) := by
    intro q h0 mq hq
    have : q.i = (q.i.toNat : Nat) := by omega
    rw [this]
    exact Acc.arrayRef_slot L (accAt_At (SArr.dim N) q.i.toNat) q.r mq q.k (hL.elems_pos hq)
  have hN := hrep.cap
  subst hN
  have hP : (SArr.dim a.N).prod = a.N := by simp [Ext.prod]
  have hfit := hrep.fits
  refine ⟨_, _, _, _, by simp only [bytes, ha, h2]; rfl, by simp only [bytes, ← hs, ha, k2]; rfl, ?_⟩
  intro byte hb
  rw [key p h4 m h2, key p' k4 m' k2] at hb
  have := slot_disjoint (P := (SArr.dim a.N).prod) h2 k2 h3 k3 (i := p.i.toNat) (i' := p'.i.toNat) (by omega) (by omega) (by
    rintro ⟨e1, e2, e3⟩
    apply hne
    obtain ⟨s, i, r, k⟩ := p
    obtain ⟨s', i', r', k'⟩ := p'
    simp only at *
    subst hs e1 e2
    congr 1
    omega)
  unfold Block.Disj at this
  omega

/-- All members of existing elements have values. -/
theorem exists_store (hL : L.WF) (dv : V) {w : ArrWorld V} (hV : Props.ArrValid L w) : ∃ σ : Loc → V, ∀ l, Inside L w l → ValueIs L w l (σ l) := by
  obtain ⟨τ, hR⟩ := hV.refines hL dv
  exact ⟨valA dv τ, fun l hl => peek_ok hL hR hl⟩

/-! #### Whole structs -/

theorem mem_keys {L : Layout V} {r0 r k : Nat} : (r, k) ∈ keys L r0 ↔ r0 ≤ r ∧ ∃ m, L[r - r0]? = some m ∧ k < m.elems := by
  induction L generalizing r0 with
  | nil => simp [keys]
  | cons m ms ih =>
    simp only [keys, List.mem_append, List.mem_map, List.mem_range, ih]
    constructor
    · rintro (⟨k', h1, h2⟩ | ⟨h1, m', h2, h3⟩)
      · cases h2
        exact ⟨Nat.le_refl _, m, by simp, h1⟩
      · refine ⟨by omega, m', ?_, h3⟩
        rw [show r - r0 = (r - (r0 + 1)) + 1 by omega, List.getElem?_cons_succ]
        exact h2
    · rintro ⟨h1, m', h2, h3⟩
      rcases Nat.eq_or_lt_of_le h1 with e | e
      · subst e
        simp only [Nat.sub_self, List.getElem?_cons_zero, Option.some.injEq] at h2
        subst h2
        exact Or.inl ⟨k, h3, rfl⟩
      · rw [show r - r0 = (r - (r0 + 1)) + 1 by omega, List.getElem?_cons_succ] at h2
        exact Or.inr ⟨by omega, m', h2, h3⟩

theorem alone_put (s : Nat) (i : Int) (c : Cell V) (t : Prog Loc V ρ) (l : List (Nat × Nat)) (σ : Loc → V) :
    alone id σ (put s i c t l) = alone id (fun q => if q.s = s ∧ q.i = i ∧ (q.r, q.k) ∈ l then c q.r q.k else σ q) t := by
  induction l generalizing σ with
  | nil => simp [put]
  | cons a l ih =>
    obtain ⟨r, k⟩ := a
    simp only [put, alone, ih]
    congr 1
    funext q
    obtain ⟨qs, qi, qr, qk⟩ := q
    simp only [id, List.mem_cons, Prod.mk.injEq, Loc.mk.injEq]
    by_cases h1 : qs = s <;> by_cases h2 : qi = i <;> by_cases h3 : (qr, qk) ∈ l <;> by_cases h4 : qr = r <;> by_cases h5 : qk = k <;>
      simp_all

theorem alone_take (s : Nat) (i : Int) (t : Cell V → Prog Loc V ρ) (l : List (Nat × Nat)) (c : Cell V) (σ : Loc → V) :
    alone id σ (take s i t l c) = alone id σ (t fun r k => if (r, k) ∈ l then σ ⟨s, i, r, k⟩ else c r k) := by
  induction l generalizing c with
  | nil => simp [take]
  | cons a l ih =>
    obtain ⟨r, k⟩ := a
    simp only [take, alone, ih]
    congr 2
    funext r' k'
    simp only [id, List.mem_cons, Prod.mk.injEq, Cell.set]
    by_cases h3 : (r', k') ∈ l <;> by_cases h4 : r' = r <;> by_cases h5 : k' = k <;> simp_all

theorem respects_put {inside : Loc → Prop} {own : Loc → Option Nat} {n s : Nat} {i : Int} (c : Cell V) {t : Prog Loc V ρ} (l : List (Nat × Nat))
    (h : ∀ r k, (r, k) ∈ l → inside ⟨s, i, r, k⟩ ∧ own ⟨s, i, r, k⟩ = some n) (ht : Respects id inside own n t) :
    Respects id inside own n (put s i c t l) := by
  induction l with
  | nil => exact ht
  | cons a l ih =>
    obtain ⟨r, k⟩ := a
    obtain ⟨h1, h2⟩ := h r k (by simp)
    exact ⟨h1, h2, ih fun r k hm => h r k (by simp [hm])⟩

theorem respects_take {inside : Loc → Prop} {own : Loc → Option Nat} {n s : Nat} {i : Int} {t : Cell V → Prog Loc V ρ} (l : List (Nat × Nat))
    (c : Cell V) (h : ∀ r k, (r, k) ∈ l → inside ⟨s, i, r, k⟩ ∧ (own ⟨s, i, r, k⟩ = none ∨ own ⟨s, i, r, k⟩ = some n))
    (ht : ∀ c, Respects id inside own n (t c)) : Respects id inside own n (take s i t l c) := by
  induction l generalizing c with
  | nil => exact ht c
  | cons a l ih =>
    obtain ⟨r, k⟩ := a
    obtain ⟨h1, h2⟩ := h r k (by simp)
    exact ⟨h1, h2, fun v => ih _ fun r k hm => h r k (by simp [hm])⟩

theorem accesses_put (s : Nat) (i : Int) (c : Cell V) (t : Prog Loc V ρ) (l : List (Nat × Nat)) (σ : Loc → V) :
    ∃ σ', accesses id σ (put s i c t l) = l.length + accesses id σ' t := by
  induction l generalizing σ with
  | nil => exact ⟨σ, by simp [put]⟩
  | cons a l ih =>
    obtain ⟨r, k⟩ := a
    obtain ⟨σ', h⟩ := ih (fun q => if q = (⟨s, i, r, k⟩ : Loc) then c r k else σ q)
    refine ⟨σ', ?_⟩
    simp only [put, accesses, id, h, List.length_cons]
    omega

theorem accesses_take (s : Nat) (i : Int) (t : Cell V → Prog Loc V ρ) (l : List (Nat × Nat)) (c : Cell V) (σ : Loc → V) :
    ∃ c', accesses id σ (take s i t l c) = l.length + accesses id σ (t c') := by
  induction l generalizing c with
  | nil => exact ⟨c, by simp [take]⟩
  | cons a l ih =>
    obtain ⟨r, k⟩ := a
    obtain ⟨c', h⟩ := ih (c.set r k (σ ⟨s, i, r, k⟩))
    refine ⟨c', ?_⟩
    simp only [take, accesses, id, h, List.length_cons]
    omega

/-- If all members of an array have the values of `l`, then the array is `l`. -/
theorem listIs_of_values (hL : L.WF) (dv : V) {w : ArrWorld V} (hV : Props.ArrValid L w) {s N : Nat} {l : List (Cell V)}
    (hc : w.step L (.capacity s) = .ok (w, .nat N)) (hs : w.step L (.size s) = .ok (w, .nat l.length))
    (hv : ∀ (i : Nat) c r k, l[i]? = some c → Inside L w ⟨s, i, r, k⟩ → ValueIs L w ⟨s, i, r, k⟩ (c r k)) : Props.ListIs L w s N l := by
  obtain ⟨τ, hR⟩ := hV.refines hL dv
  cases h1 : τ s with
  | none => simp only [ArrWorld.step, ArrWorld.withA, hR.absent h1] at hc; cases hc
  | some q =>
    obtain ⟨N', x⟩ := q
    obtain ⟨a, ha, hrep⟩ := hR.arr h1
    have hL' := Props.ListIs.of_rep hL ha hrep
    have e1 : N' = N := by
      have := hL'.cap
      rw [hc] at this
      injection this with this; injection this with _ this; injection this with this
      exact this.symm
    have e2 : x.length = l.length := by
      have := hL'.size
      rw [hs] at this
      injection this with this; injection this with _ this; injection this with this
      exact this.symm
    subst e1
    refine hL'.congr e2 fun i c c' h h' t => ?_
    funext r k
    unfold overlay
    cases hm : L[r]? with
    | none => rfl
    | some m =>
      simp only
      by_cases hk : k < m.elems
      · rw [if_pos hk, if_pos hk]
        have hin : Inside L w ⟨s, i, r, k⟩ := (inside_iff hR _).2 ⟨N', x, m, c, h1, hm, hk, by simp, by simpa using h⟩
        have a1 := hv i c' r k h' hin
        have a2 := peek_ok (dv := dv) hL hR hin
        unfold ValueIs at a1 a2
        rw [a1] at a2
        injection a2 with a2; injection a2 with _ a2; injection a2 with a2
        rw [a2]
        simp [valA, h1, h]
      · rw [if_neg hk, if_neg hk]

/-- The members of the elements of an array have the values of its elements. -/
theorem values_of_listIs (hL : L.WF) (dv : V) {w : ArrWorld V} (hV : Props.ArrValid L w) {s N : Nat} {l : List (Cell V)}
    (h : Props.ListIs L w s N l) (i : Nat) (c : Cell V) (hc : l[i]? = some c) (r k : Nat) (hin : Inside L w ⟨s, i, r, k⟩) :
    ValueIs L w ⟨s, i, r, k⟩ (c r k) := by
  obtain ⟨τ, a, l', hR, h1, ha, hrep, hlen, hag⟩ := h.rep hL dv hV
  have hp := peek_ok (dv := dv) hL hR hin
  obtain ⟨N', x, m, c', q1, q2, q3, q4, q5⟩ := (inside_iff hR _).1 hin
  simp only [Int.toNat_natCast] at q1 q2 q3 q4 q5
  rw [h1] at q1
  cases q1
  have := congrFun (congrFun (hag i c c' hc (by simpa using q5) c) r) k
  simp only [overlay, q2, if_pos q3] at this
  have hv : valA dv τ ⟨s, i, r, k⟩ = c' r k := by simp [valA, h1, q5]
  rw [hv, ← this] at hp
  exact hp

/-- C70 for soa_array: a parallel loop. Thread `j` reads element `j` of array `s` into a struct, applies the function `f j` and writes the
    result back. Whatever the interleaving, afterwards the array contains the results; other arrays are unchanged. -/
theorem C70_array_loop (hL : L.WF) (dv : V) {w : ArrWorld V} (hV : Props.ArrValid L w) {s N : Nat} {l : List (Cell V)}
    (hl : Props.ListIs L w s N l) (f : Nat → Cell V → Cell V) (c0 : Nat → Cell V) (sched : List Nat)
    (hs : ∀ j, j < l.length → 2 * (keys L 0).length ≤ sched.count j) :
    ∃ w' T', exec L w (fun j => if j < l.length then take s j (fun c => put s j (f j c) (.ret ()) (keys L 0)) (keys L 0) (c0 j)
        else .ret ()) sched = .ok (w', T') ∧ (∀ j, T' j = .ret ()) ∧
      Props.ListIs L w' s N (l.mapIdx fun j c => f j (overlay L c (c0 j))) ∧
      (∀ s' N' l', s' ≠ s → Props.ListIs L w s' N' l' → Props.ListIs L w' s' N' l') ∧ Props.ArrValid L w' := by
  obtain ⟨σ, hσ⟩ := exists_store hL dv hV
  have hkeys : ∀ {r k}, (r, k) ∈ keys L 0 → ∃ m, L[r]? = some m ∧ k < m.elems := fun h => by simpa using (mem_keys.1 h).2
  have hin : ∀ j, j < l.length → ∀ r k, (r, k) ∈ keys L 0 → Inside L w ⟨s, (j : Nat), r, k⟩ := by
    intro j hj r k h
    obtain ⟨m, h1, h2⟩ := hkeys h
    exact ⟨l.length, m, hl.size, h1, h2, by simp, by simpa using hj⟩
  let own : Loc → Option Nat := fun q => if q.s = s ∧ 0 ≤ q.i ∧ q.i < l.length then some q.i.toNat else none
  have hown : ∀ j, j < l.length → ∀ r k, own ⟨s, (j : Nat), r, k⟩ = some j := by
    intro j hj r k
    simp [own, hj]
  obtain ⟨w', T', k1, k2, k3, k4, k5⟩ := Arr.C70_array hL hV own
    (fun j => if j < l.length then take s j (fun c => put s j (f j c) (.ret ()) (keys L 0)) (keys L 0) (c0 j) else .ret ()) (by
      intro j
      by_cases hj : j < l.length
      · simp only [if_pos hj]
        exact respects_take _ _ (fun r k h => ⟨hin j hj r k h, Or.inr (hown j hj r k)⟩) fun c =>
          respects_put _ _ (fun r k h => ⟨hin j hj r k h, hown j hj r k⟩) trivial
      · simp only [if_neg hj]
        trivial) σ hσ sched
  have hfin : ∀ j, accesses id σ ((fun j => if j < l.length then take s j (fun c => put s j (f j c) (.ret ()) (keys L 0)) (keys L 0) (c0 j)
      else (.ret () : Prog Loc V Unit)) j) ≤ sched.count j := by
    intro j
    by_cases hj : j < l.length
    · simp only [if_pos hj]
      obtain ⟨c', e1⟩ := accesses_take s j (fun c => put s j (f j c) (.ret () : Prog Loc V Unit) (keys L 0)) (keys L 0) (c0 j) σ
      obtain ⟨σ', e2⟩ := accesses_put s j (f j c') (.ret () : Prog Loc V Unit) (keys L 0) σ
      rw [e1, e2]
      have := hs j hj
      simp only [accesses]
      omega
    · simp [if_neg hj, accesses]
  refine ⟨w', T', k1, fun j => (k2 j (hfin j)).1, ?_, ?_, k5⟩
  · refine listIs_of_values hL dv k5 ((k4 _ _).1.2 hl.cap) ((k4 _ _).2.2 (by simpa using hl.size)) fun i c' r k hc' hI => ?_
    have hI0 := (k4.inside _).1 hI
    rw [List.getElem?_mapIdx] at hc'
    obtain ⟨c, hc, rfl⟩ := Option.map_eq_some_iff.1 hc'
    have hi := (List.getElem?_eq_some_iff.1 hc).1
    have := (k2 i (hfin i)).2 _ hI0 (hown i hi r k)
    have hmem : (r, k) ∈ keys L 0 := by
      obtain ⟨n, m, -, b2, b3, -⟩ := hI0
      exact mem_keys.2 ⟨Nat.zero_le _, m, by simpa using b2, b3⟩
    simp only [if_pos hi, alone_take, alone_put, alone, hmem, and_self, if_true] at this
    convert this using 2
    funext r' k'
    unfold overlay
    by_cases hm : (r', k') ∈ keys L 0
    · obtain ⟨m, h1, h2⟩ := hkeys hm
      rw [h1, if_pos hm]
      simp only [if_pos h2]
      have a1 := hσ _ (hin i hi r' k' hm)
      have a2 := values_of_listIs hL dv hV hl i c hc r' k' (hin i hi r' k' hm)
      unfold ValueIs at a1 a2
      rw [a1] at a2
      injection a2 with a2; injection a2 with _ a2; injection a2 with a2
      exact a2.symm
    · rw [if_neg hm]
      cases h1 : L[r']? with
      | none => rfl
      | some m =>
        simp only
        rw [if_neg]
        intro h2
        exact hm (mem_keys.2 ⟨Nat.zero_le _, m, by simpa using h1, h2⟩)
  · intro s' N' l' hne h'
    refine listIs_of_values hL dv k5 ((k4 _ _).1.2 h'.cap) ((k4 _ _).2.2 h'.size) fun i c r k hc hI => ?_
    have hI0 := (k4.inside _).1 hI
    have a1 := k3 _ hI0 (by simp [own, hne])
    have a2 := values_of_listIs hL dv hV h' i c hc r k hI0
    have a3 := hσ _ hI0
    unfold ValueIs at a1 a2 a3 ⊢
    rw [a2] at a3
    injection a3 with a3; injection a3 with _ a3; injection a3 with a3
    rw [a1, a3]

end Arr

/-! ### soa_vector -/
namespace Vec
variable {V : Type} [DecidableEq V] {C : Cfg V} {dv : V} {ρ : Type}

/-- The member exists. -/
def Inside (C : Cfg V) (w : VecWorld V) (l : Loc) : Prop :=
  ∃ n m, w.step C (.size l.s) = .ok (w, .nat n) ∧ C.L[l.r]? = some m ∧ l.k < m.elems ∧ 0 ≤ l.i ∧ l.i < n

/-- Reading the member through an accessor at the index yields `v`. -/
def ValueIs (C : Cfg V) (w : VecWorld V) (l : Loc) (v : V) : Prop := w.step C (.peek l.s l.i 0 l.r l.k) = .ok (w, .val v)

/-- The value of a member. -/
def valV (dv : V) (σ : VecList.State V) (l : Loc) : V :=
  match σ l.s with
  | some x => ((x[l.i.toNat]?).map fun c => c l.r l.k).getD dv
  | none => dv

theorem size_of {w : VecWorld V} {τ : VecSpec.State V} {σ : VecList.State V} (hL : C.L.WF) (h1 : OneD C.tr) (hr : Roomy C.tr) (dv : V)
    (hR : VR C w τ) (h : VL C τ σ) {s : Nat} {x : List (Cell V)} (hs : σ s = some x) : w.step C (.size s) = .ok (w, .nat x.length) :=
  (Props.VecIs.of_lists hL h1 hR h hs dv).size

theorem inside_iff {w : VecWorld V} {τ : VecSpec.State V} {σ : VecList.State V} (hL : C.L.WF) (h1 : OneD C.tr) (hr : Roomy C.tr) (dv : V)
    (hR : VR C w τ) (h : VL C τ σ) (l : Loc) :
    Inside C w l ↔ ∃ x m, σ l.s = some x ∧ C.L[l.r]? = some m ∧ l.k < m.elems ∧ 0 ≤ l.i ∧ l.i < x.length := by
  constructor
  · rintro ⟨n, m, a1, a2, a3, a4, a5⟩
    cases hs : σ l.s with
    | none =>
      simp only [VecWorld.step, VecWorld.withV, hR.absent (h.absent hs)] at a1
      cases a1
    | some x =>
      have := size_of hL h1 hr dv hR h hs
      rw [a1] at this
      injection this with this; injection this with _ this; injection this with this
      subst this
      exact ⟨x, m, rfl, a2, a3, a4, a5⟩
  · rintro ⟨x, m, hs, a2, a3, a4, a5⟩
    exact ⟨x.length, m, size_of hL h1 hr dv hR h hs, a2, a3, a4, a5⟩

theorem peek_ok {w : VecWorld V} {τ : VecSpec.State V} {σ : VecList.State V} (hL : C.L.WF) (h1 : OneD C.tr) (hr : Roomy C.tr)
    (hR : VR C w τ) (h : VL C τ σ) {p : Ref} (hp : Inside C w p.loc) :
    w.step C (.peek p.s p.x p.X p.r p.k) = .ok (w, .val (valV dv σ p.loc)) := by
  obtain ⟨x, m, a1, a2, a3, a4, a5⟩ := (inside_iff hL h1 hr dv hR h p.loc).1 hp
  simp only [Ref.loc] at a1 a2 a3 a4 a5
  obtain ⟨a, ha, hl⟩ := h.vec a1
  obtain ⟨c, hc⟩ : ∃ c, x[(p.x + p.X).toNat]? = some c := ⟨_, List.getElem?_eq_getElem (by omega)⟩
  have hcell : a.cells (p.x + p.X).toNat = some c := by rw [hl.cells _ (by omega), hc]
  obtain ⟨g, hg1, hg2⟩ := hR.vec ha
  have j := hg2.peek hL a2 a3 (x := p.x) (X := p.X) (p := (p.x + p.X).toNat) (by omega) hcell
  simp only [VecWorld.step, VecWorld.withV, hg1, j, Res.withVec, VecWorld.ofVS]
  rw [← hg1, LFA.upd_id]
  simp [valV, Ref.loc, a1, hc]

/-- All vectors have the same sizes. -/
def Same (C : Cfg V) (w w' : VecWorld V) : Prop := ∀ s n, w'.step C (.size s) = .ok (w', .nat n) ↔ w.step C (.size s) = .ok (w, .nat n)

theorem Same.inside {w w' : VecWorld V} (h : Same C w w') (l : Loc) : Inside C w' l ↔ Inside C w l := by
  unfold Inside
  simp only [h _ _]

theorem poke_ok {w : VecWorld V} {τ : VecSpec.State V} {σ : VecList.State V} (hL : C.L.WF) (h1 : OneD C.tr) (hr : Roomy C.tr)
    (hR : VR C w τ) (h : VL C τ σ) {p : Ref} (hp : Inside C w p.loc) (v : V) :
    ∃ w' τ' σ', w.step C (.poke p.s p.x p.X p.r p.k v) = .ok (w', .unit) ∧ VR C w' τ' ∧ VL C τ' σ' ∧ Same C w w' ∧
      ∀ l, Inside C w l → valV dv σ' l = if l = p.loc then v else valV dv σ l := by
  obtain ⟨x, m, a1, a2, a3, a4, a5⟩ := (inside_iff hL h1 hr dv hR h p.loc).1 hp
  simp only [Ref.loc] at a1 a2 a3 a4 a5
  obtain ⟨τ', out, σ', e1, ⟨x', c, e2, e3, rfl, rfl⟩, e4⟩ := list_step h1 hr dv hR h (.poke p.s p.x p.X p.r p.k v) ⟨x, m, a1, a2, a3, a4, a5⟩
  rw [a1] at e2
  cases e2
  obtain ⟨w', k1, hR'⟩ := vec_step_refines hL h1 dv hR _ e1
  have hlt := (List.getElem?_eq_some_iff.1 e3).1
  refine ⟨w', τ', _, k1, hR', e4, fun s n => ?_, fun l hl => ?_⟩
  · by_cases es : s = p.s
    · subst es
      rw [size_of hL h1 hr dv hR' e4 (LFA.upd_self _ _ _), size_of hL h1 hr dv hR h a1, List.length_set]
      simp
    · cases hs : σ s with
      | none =>
        have h2 : World.upd σ p.s (some (x.set (p.x + p.X).toNat (c.set p.r p.k v))) s = none := by rw [LFA.upd_ne _ _ es, hs]
        simp [VecWorld.step, VecWorld.withV, hR.absent (h.absent hs), hR'.absent (e4.absent h2)]
      | some y =>
        have h2 : World.upd σ p.s (some (x.set (p.x + p.X).toNat (c.set p.r p.k v))) s = some y := by rw [LFA.upd_ne _ _ es, hs]
        rw [size_of hL h1 hr dv hR' e4 h2, size_of hL h1 hr dv hR h hs]
        simp
  · obtain ⟨y, m', q1, q2, q3, q4, q5⟩ := (inside_iff hL h1 hr dv hR h l).1 hl
    obtain ⟨ls, li, lr, lk⟩ := l
    simp only at q1 q2 q3 q4 q5
    simp only [valV, Ref.loc, Loc.mk.injEq]
    by_cases es : ls = p.s
    · subst es
      rw [a1] at q1
      cases q1
      simp only [LFA.upd_self, a1, true_and]
      by_cases ei : li = p.x + p.X
      · subst ei
        rw [List.getElem?_set_self hlt, e3]
        simp only [Option.map_some, Option.getD_some, Cell.set, true_and]
      · rw [List.getElem?_set_ne (by omega)]
        simp [ei]
    · simp [LFA.upd_ne _ _ es, es]

theorem run_snoc {w w' w'' : VecWorld V} {ops : List (VecOp V)} {op : VecOp V} {outs : List (ArrOut V)} {out : ArrOut V}
    (h : w.run C ops = .ok (w', outs)) (h' : w'.step C op = .ok (w'', out)) : w.run C (ops ++ [op]) = .ok (w'', outs ++ [out]) := by
  induction ops generalizing w outs with
  | nil => cases h; simp only [List.nil_append, VecWorld.run, h']
  | cons o ops ih =>
    simp only [VecWorld.run, List.cons_append] at h ⊢
    cases hs : w.step C o with
    | error u => rw [hs] at h; cases h
    | ok p =>
      obtain ⟨w1, o1⟩ := p
      rw [hs] at h
      simp only at h ⊢
      cases hr : w1.run C ops with
      | error u => rw [hr] at h; cases h
      | ok q =>
        rw [hr] at h
        cases h
        rw [ih hr]
        rfl

/-- The operation is an assignment to a member of an existing element. -/
def IsPoke (C : Cfg V) (w : VecWorld V) (op : VecOp V) : Prop := ∃ (p : Ref) (v : V), op = .poke p.s p.x p.X p.r p.k v ∧ Inside C w p.loc

/-- C70 for functors run by callback() of soa_vector: in every interleaving each thread behaves as if it were alone. The state is one which
    a program with a single thread reaches by assignments to members. -/
theorem C70_vector (hL : C.L.WF) (h1 : OneD C.tr) (hr : Roomy C.tr) {w : VecWorld V} (hV : Props.VecValid C dv w)
    (own : Loc → Option Nat) (T : Nat → Prog Ref V ρ) (hT : ∀ i, Respects Ref.loc (Inside C w) own i (T i)) (σ : Loc → V)
    (hσ : ∀ l, Inside C w l → ValueIs C w l (σ l)) (sched : List Nat) :
    ∃ w' T', exec C w T sched = .ok (w', T') ∧
      (∀ i, accesses Ref.loc σ (T i) ≤ sched.count i → T' i = .ret (alone Ref.loc σ (T i)).1 ∧
        ∀ l, Inside C w l → own l = some i → ValueIs C w' l ((alone Ref.loc σ (T i)).2 l)) ∧
      (∀ l, Inside C w l → own l = none → ValueIs C w' l (σ l)) ∧ Same C w w' ∧
      ∃ ops outs, (∀ op ∈ ops, IsPoke C w op) ∧ w.run C ops = .ok (w', outs) := by
  obtain ⟨τ, ξ, hR, h⟩ := hV.refines hL h1 hr
  obtain ⟨w', T', val', k1, ⟨τ', ξ', hR', h', hin, hops, rfl⟩, k3, k4⟩ := exec_start (loc := Ref.loc) (rd := rd C) (wr := wr C)
    (I := fun w' val => ∃ τ' ξ', VR C w' τ' ∧ VL C τ' ξ' ∧ Same C w w' ∧
      (∃ ops outs, (∀ op ∈ ops, IsPoke C w op) ∧ w.run C ops = .ok (w', outs)) ∧ val = valV dv ξ') (inside := Inside C w) (by
      rintro w' val p ⟨τ', ξ', hR', h', hin, hops, rfl⟩ hp
      have := peek_ok (dv := dv) hL h1 hr hR' h' ((hin.inside _).2 hp)
      simp only [rd, this]) (by
      rintro w' val p v ⟨τ', ξ', hR', h', hin, ⟨ops, outs, b1, b2⟩, rfl⟩ hp
      obtain ⟨w2, τ2, ξ2, q1, q2, q3, q4, q5⟩ := poke_ok (dv := dv) hL h1 hr hR' h' ((hin.inside _).2 hp) v
      refine ⟨w2, _, by simp only [wr, q1], ⟨τ2, ξ2, q2, q3, fun s n => (q4 s n).trans (hin s n), ⟨_, _, ?_, run_snoc b2 q1⟩, rfl⟩,
        fun l hl => q5 l ((hin.inside l).2 hl)⟩
      intro op hop
      rcases List.mem_append.1 hop with e | e
      · exact b1 op e
      · rw [List.mem_singleton] at e
        exact ⟨p, v, e, hp⟩) hT sched
      ⟨τ, ξ, hR, h, fun _ _ => Iff.rfl, ⟨[], [], by simp, rfl⟩, rfl⟩ (σ := σ) (by
      intro l hl
      have a1 := peek_ok (dv := dv) hL h1 hr hR h (p := ⟨l.s, l.i, 0, l.r, l.k⟩) (by simpa [Ref.loc] using hl)
      have a2 := hσ l hl
      unfold ValueIs at a2
      rw [a2] at a1
      injection a1 with a1; injection a1 with _ a1; injection a1 with a1
      simpa [Ref.loc] using a1.symm)
  have hat : ∀ l, Inside C w l → ValueIs C w' l (valV dv ξ' l) := by
    intro l hl
    have := peek_ok (dv := dv) hL h1 hr hR' h' (p := ⟨l.s, l.i, 0, l.r, l.k⟩) (by simpa [Ref.loc] using (hin.inside l).2 hl)
    simpa [ValueIs, Ref.loc] using this
  refine ⟨w', T', k1, fun i hi => ⟨(k3 i hi).1, fun l hl ho => ?_⟩, fun l hl ho => ?_, hin, hops⟩
  · have := hat l hl; rwa [(k3 i hi).2 l hl ho] at this
  · have := hat l hl; rwa [k4 l hl ho] at this

/-- C70 for soa_vector: results do not depend on the interleaving. -/
theorem C70_vector_deterministic (hL : C.L.WF) (h1 : OneD C.tr) (hr : Roomy C.tr) {w : VecWorld V} (hV : Props.VecValid C dv w)
    (own : Loc → Option Nat) (T : Nat → Prog Ref V ρ) (hT : ∀ i, Respects Ref.loc (Inside C w) own i (T i)) (σ : Loc → V)
    (hσ : ∀ l, Inside C w l → ValueIs C w l (σ l)) (sched sched' : List Nat) (h : ∀ i, accesses Ref.loc σ (T i) ≤ sched.count i)
    (h' : ∀ i, accesses Ref.loc σ (T i) ≤ sched'.count i) :
    ∃ w1 w2 T', exec C w T sched = .ok (w1, T') ∧ exec C w T sched' = .ok (w2, T') ∧
      ∀ l, Inside C w l → ∃ v, ValueIs C w1 l v ∧ ValueIs C w2 l v := by
  obtain ⟨w1, T1, a1, a2, a3, -⟩ := Vec.C70_vector hL h1 hr hV own T hT σ hσ sched
  obtain ⟨w2, T2, b1, b2, b3, -⟩ := Vec.C70_vector hL h1 hr hV own T hT σ hσ sched'
  have hTT : T1 = T2 := by
    funext i
    rw [(a2 i (h i)).1, (b2 i (h' i)).1]
  subst hTT
  refine ⟨w1, w2, T1, a1, b1, fun l hl => ?_⟩
  cases ho : own l with
  | none => exact ⟨_, a3 l hl ho, b3 l hl ho⟩
  | some i => exact ⟨_, (a2 i (h i)).2 l hl ho, (b2 i (h' i)).2 l hl ho⟩

/-- C70 for soa_vector: different members share no byte. -/
theorem C70_vector_no_race (hL : C.L.WF) (h1 : OneD C.tr) (hr : Roomy C.tr) {w : VecWorld V} (hV : Props.VecValid C dv w)
    {p p' : Ref} (hp : Inside C w p.loc) (hp' : Inside C w p'.loc) (hne : p.loc ≠ p'.loc) :
    ∃ id addr n id' addr' n', bytes C w p = some (id, addr, n) ∧ bytes C w p' = some (id', addr', n') ∧
      ∀ byte : Int, ¬ (id = id' ∧ addr ≤ byte ∧ byte < addr + n ∧ addr' ≤ byte ∧ byte < addr' + n') := by
  obtain ⟨τ, ξ, hR, h⟩ := hV.refines hL h1 hr
  have key : ∀ p : Ref, Inside C w p.loc → ∃ v ext id m i, w.v p.s = some v ∧ v.g.data = some id ∧
      selectSizes C.tr v.g.dim = .ok ⟨ext, 1, 1⟩ ∧ C.L[p.r]? = some m ∧ p.k < m.elems ∧ i < ext ∧ p.x + p.X = (i : Nat) ∧
      bytes C w p = some (id, ((slot ext (offset C.L p.r) m.ty.size p.k i : Nat) : Int), m.ty.size) := by
    intro p hp
    obtain ⟨x, m, a1, a2, a3, a4, a5⟩ := (inside_iff hL h1 hr dv hR h p.loc).1 hp
    simp only [Ref.loc] at a1 a2 a3 a4 a5
    obtain ⟨a, ha, hl⟩ := h.vec a1
    obtain ⟨v, hv, hok⟩ := hR.vec ha
    obtain ⟨id, b, hid, -⟩ := hok.buf
    have hsel : selectSizes C.tr v.dim = .ok ⟨a.ext, 1, 1⟩ := by rw [hok.dim]; exact hok.sel
    obtain ⟨i, hi⟩ := Int.eq_ofNat_of_zero_le a4
    have hfit := hl.fit
    have hlen := hl.len
    refine ⟨_, a.ext, id, m, i, hv, hid, hsel, a2, a3, by omega, hi, ?_⟩
    unfold bytes
    simp only [hv, a2, hsel, hid]
    rw [userRef_slot hL (shift_At (e := ⟨a.ext, 1, 1⟩) (px := i) (py := 0) (pz := 0) (by omega) (by omega) (by omega)) a2 a3, lin1,
      show ((accAt (⟨a.ext, 1, 1⟩ : Ext) (genIndex ⟨a.ext, 1, 1⟩ p.x 0 0)).shift p.X 0 0).ext.prod = a.ext from prod1 _]
  obtain ⟨v, ext, id, m, i, b1, b2, b3, b4, b5, b6, b7, b8⟩ := key p hp
  obtain ⟨v', ext', id', m', i', c1, c2, c3, c4, c5, c6, c7, c8⟩ := key p' hp'
  refine ⟨_, _, _, _, _, _, b8, c8, ?_⟩
  rintro byte ⟨rfl, hb⟩
  have hs := hR.own _ _ _ _ _ b1 c1 b2 c2
  rw [← hs, b1] at c1; cases c1
  rw [b3] at c3; cases c3
  have := slot_disjoint (P := ext) b4 c4 b5 c5 b6 c6 (by
    rintro ⟨e1, e2, e3⟩
    apply hne
    simp only [Ref.loc, Loc.mk.injEq]
    exact ⟨hs, by omega, e1, e2⟩)
  unfold Block.Disj at this
  omega

/-- All members of existing elements have values. -/
theorem exists_store (hL : C.L.WF) (h1 : OneD C.tr) (hr : Roomy C.tr) {w : VecWorld V} (hV : Props.VecValid C dv w) :
    ∃ σ : Loc → V, ∀ l, Inside C w l → ValueIs C w l (σ l) := by
  obtain ⟨τ, ξ, hR, h⟩ := hV.refines hL h1 hr
  refine ⟨valV dv ξ, fun l hl => ?_⟩
  have := peek_ok (dv := dv) hL h1 hr hR h (p := ⟨l.s, l.i, 0, l.r, l.k⟩) (by simpa [Ref.loc] using hl)
  simpa [ValueIs, Ref.loc] using this

end Vec

/-! ### Examples -/
namespace Demo

/-- Two threads read the same element, and write to different ones. -/
def T : Nat → Prog Loc Int Int
  | 0 => .peek ⟨0, 1, 1, 2⟩ fun v => .poke ⟨0, 0, 1, 2⟩ (v + 1) (.ret v)
  | 1 => .peek ⟨0, 1, 1, 2⟩ fun v => .poke ⟨0, 2, 1, 2⟩ (v + 2) (.peek ⟨0, 2, 1, 2⟩ fun v => .ret v)
  | _ => .ret 0

/-- Who writes where. -/
def own (l : Loc) : Option Nat := if l = ⟨0, 0, 1, 2⟩ then some 0 else if l = ⟨0, 2, 1, 2⟩ then some 1 else none

theorem T_respects {inside : Loc → Prop} (h : ∀ i : Int, 0 ≤ i → i < 3 → inside ⟨0, i, 1, 2⟩) (i : Nat) : Respects id inside own i (T i) := by
  match i with
  | 0 => exact ⟨h 1 (by omega) (by omega), .inl rfl, fun v => ⟨h 0 (by omega) (by omega), rfl, trivial⟩⟩
  | 1 => exact ⟨h 1 (by omega) (by omega), .inl rfl, fun v => ⟨h 2 (by omega) (by omega), rfl, h 2 (by omega) (by omega), .inr rfl,
      fun _ => trivial⟩⟩
  | _ + 2 => exact trivial

theorem T_done (σ : Loc → Int) {sched : List Nat} (h0 : 2 ≤ sched.count 0) (h1 : 3 ≤ sched.count 1) (i : Nat) :
    accesses id σ (T i) ≤ sched.count i :=
  match i with
  | 0 => by simpa [accesses, T] using h0
  | 1 => by simpa [accesses, T] using h1
  | _ + 2 => by simp [accesses, T]

example : ∃ w w' T' v, Arr.exec demoL w T [1, 0, 1, 0, 1] = .ok (w', T') ∧ T' 0 = .ret v ∧ T' 1 = .ret (v + 2) ∧
    (∃ w2, Arr.exec demoL w T [0, 0, 1, 1, 1] = .ok (w2, T')) ∧
    (∃ addr addr' : Int, Arr.bytes demoL w ⟨0, 0, 1, 2⟩ = some (addr, 4) ∧ Arr.bytes demoL w ⟨0, 2, 1, 2⟩ = some (addr', 4) ∧ addr ≠ addr') := by
  obtain ⟨w, hV, l, hl, h3⟩ := Props.demoArr_valid
  have hin : ∀ i : Int, 0 ≤ i → i < 3 → Arr.Inside demoL w ⟨0, i, 1, 2⟩ := fun i h0 h1 =>
    ⟨l.length, ⟨⟨4, true⟩, some 3, 0⟩, hl.size, rfl, by simp [Member.elems], h0, by simp only [h3]; omega⟩
  obtain ⟨σ, hσ⟩ := Arr.exists_store demoL_WF 0 hV
  obtain ⟨w', T', h1, h2, -⟩ := Arr.C70_array demoL_WF hV own T (T_respects hin) σ hσ [1, 0, 1, 0, 1]
  obtain ⟨w1, w2, T2, a1, a2, -⟩ := Arr.C70_array_deterministic demoL_WF hV own T (T_respects hin) σ hσ [1, 0, 1, 0, 1] [0, 0, 1, 1, 1]
    (T_done σ (by decide) (by decide)) (T_done σ (by decide) (by decide))
  rw [h1] at a1
  cases a1
  obtain ⟨addr, n, addr', n', b1, b2, b3⟩ := Arr.C70_array_no_race demoL_WF 0 hV (hin 0 (by omega) (by omega)) (hin 2 (by omega) (by omega)) rfl
    (by decide)
  have hn : n = 4 ∧ n' = 4 := by
    obtain ⟨a, ha, -⟩ := hl.exists
    simp only [Arr.bytes, ha] at b1 b2
    exact ⟨by injection b1 with b1; injection b1 with _ b1; exact b1.symm, by injection b2 with b2; injection b2 with _ b2; exact b2.symm⟩
  obtain ⟨rfl, rfl⟩ := hn
  refine ⟨w, w', T', σ ⟨0, 1, 1, 2⟩, h1, (h2 0 (T_done σ (by decide) (by decide) 0)).1, ?_, ⟨w2, a2⟩, addr, addr', b1, b2, fun e => ?_⟩
  · rw [(h2 1 (T_done σ (by decide) (by decide) 1)).1]
    simp [alone, T]
  · subst e
    exact b3 addr ⟨Int.le_refl _, by omega, Int.le_refl _, by omega⟩

/-- A parallel loop which negates all members; the threads take turns. -/
example : ∃ w w' T' l, Props.ListIs demoL w 0 4 l ∧ l.length = 3 ∧
    Arr.exec demoL w (fun j => if j < l.length then Arr.take 0 j (fun c => Arr.put 0 j (fun r k => - c r k) (.ret ()) (Arr.keys demoL 0))
      (Arr.keys demoL 0) demoCell else .ret ()) ((List.replicate 10 [2, 0, 1]).flatten) = .ok (w', T') ∧
    Props.ListIs demoL w' 0 4 (l.map fun c r k => - overlay demoL c demoCell r k) := by
  obtain ⟨w, hV, l, hl, h3⟩ := Props.demoArr_valid
  obtain ⟨w', T', h1, -, h2, -⟩ := Arr.C70_array_loop demoL_WF 0 hV hl (fun _ c r k => - c r k) (fun _ => demoCell)
    ((List.replicate 10 [2, 0, 1]).flatten) (by rw [h3]; decide)
  exact ⟨w, w', T', l, hl, h3, h1, by
    have e : (l.mapIdx fun _ c r k => - overlay demoL c demoCell r k) = l.map fun c r k => - overlay demoL c demoCell r k := by
      apply List.ext_getElem? ; simp
    rw [← e]; exact h2⟩

/-- The same threads for a vector, the element is reached by index and offset. -/
def TV : Nat → Prog Vec.Ref Int Int
  | 0 => .peek ⟨0, 2, -1, 0, 0⟩ fun v => .poke ⟨0, 2, 4, 0, 0⟩ (v + 1) (.ret v)
  | 1 => .peek ⟨0, 1, 0, 0, 0⟩ fun v => .poke ⟨0, 3, -1, 0, 0⟩ (v + 2) (.ret v)
  | _ => .ret 0

def ownV (l : Loc) : Option Nat := if l = ⟨0, 6, 0, 0⟩ then some 0 else if l = ⟨0, 2, 0, 0⟩ then some 1 else none

example : ∃ w w' T' v, Vec.exec Props.vecC w TV [1, 0, 1, 0] = .ok (w', T') ∧ T' 0 = .ret v ∧ T' 1 = .ret v ∧
    (∃ w2, Vec.exec Props.vecC w TV [0, 0, 1, 1] = .ok (w2, T')) ∧
    ∃ id addr n id' addr' n', Vec.bytes Props.vecC w ⟨0, 2, 4, 0, 0⟩ = some (id, addr, n) ∧ Vec.bytes Props.vecC w ⟨0, 3, -1, 0, 0⟩ = some (id', addr', n') := by
  obtain ⟨w, hV, hl, -⟩ := Props.vec_state
  have hin : ∀ i : Int, 0 ≤ i → i < 7 → Vec.Inside Props.vecC w ⟨0, i, 0, 0⟩ := fun i h0 h1 =>
    ⟨7, ⟨⟨4, true⟩, none, 0⟩, by simpa using hl.size, rfl, by simp [Member.elems], h0, by simpa using h1⟩
  have hT : ∀ i, Respects Vec.Ref.loc (Vec.Inside Props.vecC w) ownV i (TV i) := fun i => match i with
    | 0 => ⟨hin _ (by decide) (by decide), .inl rfl, fun v => ⟨hin _ (by decide) (by decide), rfl, trivial⟩⟩
    | 1 => ⟨hin _ (by decide) (by decide), .inl rfl, fun v => ⟨hin _ (by decide) (by decide), rfl, trivial⟩⟩
    | _ + 2 => trivial
  obtain ⟨σ, hσ⟩ := Vec.exists_store Props.vecC_WF Props.vecC_one Props.vecC_roomy hV
  have hd : ∀ {sched : List Nat}, 2 ≤ sched.count 0 → 2 ≤ sched.count 1 → ∀ i, accesses Vec.Ref.loc σ (TV i) ≤ sched.count i :=
    fun h0 h1 i => match i with
    | 0 => by simpa [accesses, TV] using h0
    | 1 => by simpa [accesses, TV] using h1
    | _ + 2 => by simp [accesses, TV]
  obtain ⟨w', T', h1, h2, -⟩ := Vec.C70_vector Props.vecC_WF Props.vecC_one Props.vecC_roomy hV ownV TV hT σ hσ [1, 0, 1, 0]
  obtain ⟨w1, w2, T2, a1, a2, -⟩ := Vec.C70_vector_deterministic Props.vecC_WF Props.vecC_one Props.vecC_roomy hV ownV TV hT σ hσ [1, 0, 1, 0]
    [0, 0, 1, 1] (hd (by decide) (by decide)) (hd (by decide) (by decide))
  rw [h1] at a1
  cases a1
  obtain ⟨id, addr, n, id', addr', n', b1, b2, -⟩ := Vec.C70_vector_no_race Props.vecC_WF Props.vecC_one Props.vecC_roomy hV
    (p := ⟨0, 2, 4, 0, 0⟩) (p' := ⟨0, 3, -1, 0, 0⟩) (hin _ (by decide) (by decide)) (hin _ (by decide) (by decide)) (by decide)
  refine ⟨w, w', T', σ ⟨0, 1, 0, 0⟩, h1, (h2 0 (hd (by decide) (by decide) 0)).1, (h2 1 (hd (by decide) (by decide) 1)).1, ⟨w2, a2⟩,
    id, addr, n, id', addr', n', b1, b2⟩

end Demo
end Share
end LFA
