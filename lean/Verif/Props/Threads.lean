import Verif.Threads
import Verif.GridValid
import Verif.Demo
import Verif.Props.Layout
import Mathlib.Logic.Function.Iterate

/-
  C61: threads which share grids. As long as no thread writes what another one accesses, each thread observes what it would observe
  alone, in every interleaving.
-/
set_option linter.unusedSectionVars false
namespace LFA
namespace Thr
variable {V : Type} [DecidableEq V] {C : Cfg V} {dv : V} {ρ : Type}

/-! ### Vocabulary -/

/-- The location exists. -/
def InGrid (C : Cfg V) (w : World V) (l : Loc) : Prop :=
  ∃ d m, DimsAre C w l.s d ∧ C.L[l.r]? = some m ∧ l.k < m.elems ∧
    0 ≤ l.x ∧ l.x < d.x ∧ 0 ≤ l.y ∧ l.y < d.y ∧ 0 ≤ l.z ∧ l.z < d.z

/-- Reading the location yields `v`. -/
def ValueIs (C : Cfg V) (w : World V) (l : Loc) (v : V) : Prop :=
  w.step C (.peek l.s l.x l.y l.z 0 0 0 l.r l.k) = .ok (w, .val (some v))

/-- A functor which runs alone on an array of values: result and new values. -/
def alone (σ : Loc → V) : Prog V ρ → ρ × (Loc → V)
  | .ret v => (v, σ)
  | .tau c => alone σ c
  | .peek p c => alone σ (c (σ p.loc))
  | .poke p v c => alone (fun l => if l = p.loc then v else σ l) c

/-- The number of steps of a functor which runs alone. -/
def accesses (σ : Loc → V) : Prog V ρ → Nat
  | .ret _ => 0
  | .tau c => accesses σ c + 1
  | .peek p c => accesses σ (c (σ p.loc)) + 1
  | .poke p v c => accesses (fun l => if l = p.loc then v else σ l) c + 1

/-- Whatever the functor reads, it stays inside of the grids, writes to locations of thread `i` only, and reads from these and from
    locations which nobody writes to. -/
def Respects (inside : Loc → Prop) (own : Loc → Option Nat) (i : Nat) : Prog V ρ → Prop
  | .ret _ => True
  | .tau c => Respects inside own i c
  | .peek p c => inside p.loc ∧ (own p.loc = none ∨ own p.loc = some i) ∧ ∀ v, Respects inside own i (c v)
  | .poke p _ c => inside p.loc ∧ own p.loc = some i ∧ Respects inside own i c

/-! ### Steps of a thread -/

/-- The location exists, in terms of arrays. -/
def InA (C : Cfg V) (a : AWorld V) (l : Loc) : Prop :=
  ∃ g m, a l.s = .grid g ∧ C.L[l.r]? = some m ∧ l.k < m.elems ∧
    0 ≤ l.x ∧ l.x < g.dim.x ∧ 0 ≤ l.y ∧ l.y < g.dim.y ∧ 0 ≤ l.z ∧ l.z < g.dim.z

/-- The value at a location. -/
def valA (dv : V) (a : AWorld V) (l : Loc) : V :=
  match a l.s with
  | .grid g => g.cells l.x.toNat l.y.toNat l.z.toNat l.r l.k
  | _ => dv

theorem inA_iff {w : World V} {a : AWorld V} (hR : R C w a) (l : Loc) : InA C a l ↔ InGrid C w l := by
  constructor
  · rintro ⟨g, m, h1, h2⟩
    exact ⟨g.dim, m, hR.dims h1, h2⟩
  · rintro ⟨d, m, h1, h2, h3, h4⟩
    have hd : d ≠ ⟨0, 0, 0⟩ := by rintro rfl; simp at h4; omega
    obtain ⟨ag, k1, k2⟩ := hR.of_dims h1 hd
    exact ⟨ag, m, k1, h2, h3, by rw [k2]; exact h4⟩

theorem peek_step (hL : C.L.WF) {w : World V} {a : AWorld V} (hR : R C w a) {p : Ref} (hin : InA C a p.loc) :
    w.step C (.peek p.s p.x p.y p.z p.X p.Y p.Z p.r p.k) = .ok (w, .val (some (valA dv a p.loc))) := by
  obtain ⟨g, m, h1, h2, h3, h4⟩ := hin
  obtain ⟨w', out, a', k1, k2, k3⟩ := step_refines hL dv hR (.peek p.s p.x p.y p.z p.X p.Y p.Z p.r p.k) ⟨g, m, h1, h2, h3, h4⟩
  obtain ⟨g1, hg1, hg2⟩ := hR.grid h1
  have e1 : p.x + p.X = ((p.x + p.X).toNat : Int) := by simp only [Ref.loc] at h4; omega
  have e2 : p.y + p.Y = ((p.y + p.Y).toNat : Int) := by simp only [Ref.loc] at h4; omega
  have e3 : p.z + p.Z = ((p.z + p.Z).toNat : Int) := by simp only [Ref.loc] at h4; omega
  have k4 := hg2.peek hL h2 h3 e1 e2 e3 (by simp only [Ref.loc] at h4; omega) (by simp only [Ref.loc] at h4; omega)
    (by simp only [Ref.loc] at h4; omega)
  have h1' : a p.s = .grid g := h1
  simp only [Ref.loc] at hg1 k4
  simp only [World.step, World.withG, hg1, k4, World.ofH, valA, Ref.loc, h1']

theorem poke_step (hL : C.L.WF) {w : World V} {a : AWorld V} (hR : R C w a) {p : Ref} (hin : InA C a p.loc) (v : V) :
    ∃ w' a', w.step C (.poke p.s p.x p.y p.z p.X p.Y p.Z p.r p.k v) = .ok (w', .unit) ∧ R C w' a' ∧
      (∀ l, InA C a' l ↔ InA C a l) ∧ ∀ l, InA C a l → valA dv a' l = if l = p.loc then v else valA dv a l := by
  obtain ⟨g, m, h1, h2, h3, h4⟩ := hin
  obtain ⟨w', out, a', k1, k2, k3⟩ := step_refines hL dv hR (.poke p.s p.x p.y p.z p.X p.Y p.Z p.r p.k v) ⟨g, m, h1, h2, h3, h4⟩
  cases k2 with
  | poke _ _ _ _ _ _ _ _ _ _ g' px py pz hg' ex ey ez =>
    have h1' : a p.s = .grid g := h1
    rw [h1'] at hg'; cases hg'
    refine ⟨w', _, k1, k3, fun l => ?_, fun l hl => ?_⟩
    · unfold InA
      by_cases hs : l.s = p.s
      · rw [hs, upd_self, h1']
        constructor
        · rintro ⟨g1, m1, q1, q2⟩; cases q1; exact ⟨_, m1, rfl, q2⟩
        · rintro ⟨g1, m1, q1, q2⟩; cases q1; exact ⟨_, m1, rfl, q2⟩
      · rw [upd_ne _ _ hs]
    · obtain ⟨g1, m1, q1, q2, q3, q4⟩ := hl
      unfold valA
      by_cases hs : l.s = p.s
      · rw [hs, upd_self, h1']
        rw [hs, h1'] at q1; cases q1
        simp only [Spec.setRow]
        by_cases hc : l.y.toNat = py ∧ l.z.toNat = pz ∧ px ≤ l.x.toNat ∧ l.x.toNat < px + 1
        · rw [if_pos hc]
          have exl : l.x = p.x + p.X := by omega
          have eyl : l.y = p.y + p.Y := by omega
          have ezl : l.z = p.z + p.Z := by omega
          simp only [Cell.set]
          by_cases hrk : l.r = p.r ∧ l.k = p.k
          · rw [if_pos hrk, if_pos]
            obtain ⟨s, x, y, z, r, k⟩ := l
            simp only at hs exl eyl ezl hrk
            obtain ⟨rfl, rfl⟩ := hrk
            subst hs exl eyl ezl
            rfl
          · rw [if_neg hrk, if_neg]
            · rw [show px = l.x.toNat by omega, show py = l.y.toNat by omega, show pz = l.z.toNat by omega]
            · rintro rfl; exact hrk ⟨rfl, rfl⟩
        · rw [if_neg hc, if_neg]
          rintro rfl
          simp only [Ref.loc] at hc q4
          omega
      · rw [upd_ne _ _ hs, if_neg]
        rintro rfl; exact hs rfl

/-- A step of a functor which runs alone. -/
def stepAlone (q : (Loc → V) × Prog V ρ) : (Loc → V) × Prog V ρ :=
  match q.2 with
  | .ret _ => q
  | .tau c => (q.1, c)
  | .peek p c => (q.1, c (q.1 p.loc))
  | .poke p v c => (fun l => if l = p.loc then v else q.1 l, c)

theorem stepAlone_all (σ : Loc → V) (t : Prog V ρ) (n : Nat) (hn : accesses σ t ≤ n) :
    stepAlone^[n] (σ, t) = ((alone σ t).2, .ret (alone σ t).1) := by
  induction t generalizing σ n with
  | ret v =>
    have : stepAlone^[n] ((σ, .ret v) : (Loc → V) × Prog V ρ) = (σ, .ret v) := Function.iterate_fixed rfl n
    simpa [alone] using this
  | tau c ih =>
    cases n with
    | zero => simp [accesses] at hn
    | succ n => rw [Function.iterate_succ_apply]; exact ih σ n (by simpa [accesses] using hn)
  | peek p c ih =>
    cases n with
    | zero => simp [accesses] at hn
    | succ n => rw [Function.iterate_succ_apply]; exact ih _ σ n (by simpa [accesses] using hn)
  | poke p v c ih =>
    cases n with
    | zero => simp [accesses] at hn
    | succ n => rw [Function.iterate_succ_apply]; exact ih _ n (by simpa [accesses] using hn)

theorem stepAlone_respects {inside : Loc → Prop} {own : Loc → Option Nat} {i : Nat} (σ : Loc → V) (t : Prog V ρ)
    (h : Respects inside own i t) (n : Nat) :
    Respects inside own i (stepAlone^[n] (σ, t)).2 ∧ ∀ l, own l ≠ some i → (stepAlone^[n] (σ, t)).1 l = σ l := by
  induction n with
  | zero => exact ⟨h, fun _ _ => rfl⟩
  | succ n ih =>
    rw [Function.iterate_succ_apply']
    generalize stepAlone^[n] (σ, t) = q at ih
    obtain ⟨h1, h2⟩ := ih
    unfold stepAlone
    cases hq : q.2 with
    | ret v => rw [hq] at h1; simp only [hq]; exact ⟨trivial, h2⟩
    | tau c => rw [hq] at h1; exact ⟨h1, h2⟩
    | peek p c => rw [hq] at h1; exact ⟨h1.2.2 _, h2⟩
    | poke p v c =>
      rw [hq] at h1
      refine ⟨h1.2.2, fun l hl => ?_⟩
      have : l ≠ p.loc := by rintro rfl; exact hl h1.2.1
      simp only [if_neg this]
      exact h2 l hl

theorem exec_ok (hL : C.L.WF) {inside : Loc → Prop} {own : Loc → Option Nat} {σ : Loc → V} {T0 : Nat → Prog V ρ}
    (hT : ∀ i, Respects inside own i (T0 i)) (sched : List Nat) (n : Nat → Nat) {w : World V} {a : AWorld V} (hV : Valid C dv w) (hR : R C w a)
    (hin : ∀ l, InA C a l ↔ inside l) {T : Nat → Prog V ρ} (hprog : ∀ i, T i = (stepAlone^[n i] (σ, T0 i)).2)
    (hval : ∀ l, inside l → valA dv a l = match own l with
      | none => σ l
      | some i => (stepAlone^[n i] (σ, T0 i)).1 l) :
    ∃ w' T' a', exec C w T sched = .ok (w', T') ∧ Valid C dv w' ∧ R C w' a' ∧ (∀ l, InA C a' l ↔ inside l) ∧
      (∀ i, T' i = (stepAlone^[n i + sched.count i] (σ, T0 i)).2) ∧
      ∀ l, inside l → valA dv a' l = match own l with
        | none => σ l
        | some i => (stepAlone^[n i + sched.count i] (σ, T0 i)).1 l := by
  induction sched generalizing n w a T with
  | nil => exact ⟨w, T, a, rfl, hV, hR, hin, hprog, hval⟩
  | cons i sched ih =>
    -- after the step of thread `i`
    have key : ∃ w1 a1 t, advance C w (T i) = .ok (w1, t) ∧ Valid C dv w1 ∧ R C w1 a1 ∧ (∀ l, InA C a1 l ↔ inside l) ∧
        t = (stepAlone^[n i + 1] (σ, T0 i)).2 ∧ ∀ l, inside l → valA dv a1 l = match own l with
          | none => σ l
          | some j => (stepAlone^[if j = i then n j + 1 else n j] (σ, T0 j)).1 l := by
      obtain ⟨r1, r2⟩ := stepAlone_respects σ (T0 i) (hT i) (n i)
      rw [Function.iterate_succ_apply', hprog i]
      have hval' : ∀ l, inside l → own l = none ∨ own l = some i → valA dv a l = (stepAlone^[n i] (σ, T0 i)).1 l := by
        intro l hl ho
        rw [hval l hl]
        rcases ho with ho | ho
        · rw [ho, r2 l (by rw [ho]; exact fun h => nomatch h)]
        · rw [ho]
      have hval2 : ∀ l, inside l → (own l = some i → valA dv a l = (stepAlone (stepAlone^[n i] (σ, T0 i))).1 l) →
          valA dv a l = match own l with
          | none => σ l
          | some j => (stepAlone^[if j = i then n j + 1 else n j] (σ, T0 j)).1 l := by
        intro l hl h1
        cases ho : own l with
        | none => simp only; rw [hval l hl, ho]
        | some j =>
          simp only
          by_cases hj : j = i
          · subst hj
            rw [if_pos rfl, Function.iterate_succ_apply', h1 ho]
          · rw [if_neg hj, hval l hl, ho]
      generalize hq : stepAlone^[n i] (σ, T0 i) = q at r1 r2 hval' hval2
      cases hq2 : q.2 with
      | ret v =>
        refine ⟨w, a, .ret v, rfl, hV, hR, hin, by simp [stepAlone, hq2], fun l hl => hval2 l hl fun ho => ?_⟩
        rw [hval' l hl (.inr ho)]; simp [stepAlone, hq2]
      | tau c =>
        refine ⟨w, a, c, rfl, hV, hR, hin, by simp [stepAlone, hq2], fun l hl => hval2 l hl fun ho => ?_⟩
        rw [hval' l hl (.inr ho)]; simp [stepAlone, hq2]
      | peek p c =>
        rw [hq2] at r1
        refine ⟨w, a, c (valA dv a p.loc), ?_, hV, hR, hin, ?_, fun l hl => hval2 l hl fun ho => ?_⟩
        · simp only [advance, peek_step (dv := dv) hL hR ((hin _).2 r1.1)]
        · simp only [stepAlone, hq2, hval' _ r1.1 r1.2.1]
        · rw [hval' l hl (.inr ho)]; simp [stepAlone, hq2]
      | poke p v c =>
        rw [hq2] at r1
        obtain ⟨w1, a1, k1, k2, k3, k4⟩ := poke_step (dv := dv) hL hR ((hin _).2 r1.1) v
        refine ⟨w1, a1, c, ?_, hV.next hL hR (by simp) (by obtain ⟨g, m, q⟩ := (hin _).2 r1.1; exact ⟨g, m, q⟩) k1, k2, fun l => (k3 l).trans (hin l), by simp [stepAlone, hq2], fun l hl => ?_⟩
        · simp only [advance, k1]
        · rw [k4 l ((hin l).2 hl)]
          by_cases hl' : l = p.loc
          · subst hl'
            rw [if_pos rfl, r1.2.1]
            simp only [if_true]
            rw [Function.iterate_succ_apply', hq]
            simp [stepAlone, hq2]
          · rw [if_neg hl']
            refine hval2 l hl fun ho => ?_
            rw [hval' l hl (.inr ho)]; simp [stepAlone, hq2, hl']
    obtain ⟨w1, a1, t, k1, hV1, k2, k3, k4, k5⟩ := key
    have hcount : ∀ j, (if j = i then n j + 1 else n j) + sched.count j = n j + (i :: sched).count j := by
      intro j
      rw [List.count_cons]
      by_cases hj : j = i
      · subst hj; simp; omega
      · have : ¬ (i == j) = true := by simp; exact fun h => hj h.symm
        simp [hj, this]
    obtain ⟨w2, T2, a2, m1, hV2, m2, m3, m4, m5⟩ := ih (fun j => if j = i then n j + 1 else n j) hV1 k2 k3 (T := World.upd T i t) (by
      intro j
      by_cases hj : j = i
      · subst hj; rw [upd_self, k4, if_pos rfl]
      · rw [upd_ne _ _ hj, hprog j, if_neg hj]) k5
    refine ⟨w2, T2, a2, ?_, hV2, m2, m3, fun j => by rw [m4 j, hcount j], fun l hl => ?_⟩
    · simp only [exec, k1, m1]
    · rw [m5 l hl]
      cases own l with
      | none => rfl
      | some j => simp only; rw [hcount j]

/-! ### Functors -/

/-- C61 for functors run by `callback`: in every interleaving each thread behaves as if it were alone. Missing: `get`, `set` and the
    other calls which use the staging buffers, see `C61_false_get`. -/
theorem C61_parallel_partial (hL : C.L.WF) {w : World V} (hV : Valid C dv w) (own : Loc → Option Nat) (T : Nat → Prog V ρ)
    (hT : ∀ i, Respects (InGrid C w) own i (T i)) (σ : Loc → V) (hσ : ∀ l, InGrid C w l → ValueIs C w l (σ l)) (sched : List Nat) :
    ∃ w' T', exec C w T sched = .ok (w', T') ∧
      (∀ i, accesses σ (T i) ≤ sched.count i → T' i = .ret (alone σ (T i)).1 ∧
        ∀ l, InGrid C w l → own l = some i → ValueIs C w' l ((alone σ (T i)).2 l)) ∧
      (∀ l, InGrid C w l → own l = none → ValueIs C w' l (σ l)) ∧ (∀ l, InGrid C w' l ↔ InGrid C w l) ∧ Valid C dv w' := by
  obtain ⟨a, hR⟩ := hV.refines hL
  have hat : ∀ {w a} (_ : R C w a) (l : Loc), InA C a l → ValueIs C w l (valA dv a l) := by
    intro w a hR l hl
    have := peek_step (dv := dv) hL hR (p := ⟨l.s, l.x, l.y, l.z, 0, 0, 0, l.r, l.k⟩) (by simpa [Ref.loc] using hl)
    simpa [ValueIs, Ref.loc] using this
  have h0 : ∀ l, InGrid C w l → valA dv a l = σ l := by
    intro l hl
    have h1 := hat hR l ((inA_iff hR l).2 hl)
    have h2 := hσ l hl
    unfold ValueIs at h1 h2
    rw [h1] at h2
    simpa using h2
  obtain ⟨w', T', a', k1, kV, k2, k3, k4, k5⟩ := exec_ok (dv := dv) hL hT sched (fun _ => 0) hV hR (inA_iff hR) (T := T) (σ := σ) (fun _ => rfl) (by
    intro l hl
    rw [h0 l hl]
    cases own l <;> rfl)
  refine ⟨w', T', k1, fun i hi => ?_, fun l hl ho => ?_, fun l => (inA_iff k2 l).symm.trans (k3 l), kV⟩
  · have hall := stepAlone_all σ (T i) (0 + sched.count i) (by omega)
    refine ⟨by rw [k4 i, hall], fun l hl ho => ?_⟩
    have := hat k2 l ((k3 l).2 hl)
    rw [k5 l hl, ho] at this
    simp only [hall] at this
    exact this
  · have := hat k2 l ((k3 l).2 hl)
    rwa [k5 l hl, ho] at this

/-- C61: what the threads leave behind does not depend on the order in which they run. -/
theorem C61_deterministic (hL : C.L.WF) {w : World V} (hV : Valid C dv w) (own : Loc → Option Nat) (T : Nat → Prog V ρ)
    (hT : ∀ i, Respects (InGrid C w) own i (T i)) (σ : Loc → V) (hσ : ∀ l, InGrid C w l → ValueIs C w l (σ l)) (sched sched' : List Nat)
    (h : ∀ i, accesses σ (T i) ≤ sched.count i) (h' : ∀ i, accesses σ (T i) ≤ sched'.count i) :
    ∃ w1 w2 T', exec C w T sched = .ok (w1, T') ∧ exec C w T sched' = .ok (w2, T') ∧
      ∀ l, InGrid C w l → ∃ v, ValueIs C w1 l v ∧ ValueIs C w2 l v := by
  obtain ⟨w1, T1, a1, a2, a3, -⟩ := C61_parallel_partial hL hV own T hT σ hσ sched
  obtain ⟨w2, T2, b1, b2, b3, -⟩ := C61_parallel_partial hL hV own T hT σ hσ sched'
  have hTT : T1 = T2 := by
    funext i
    rw [(a2 i (h i)).1, (b2 i (h' i)).1]
  subst hTT
  refine ⟨w1, w2, T1, a1, b1, fun l hl => ?_⟩
  cases ho : own l with
  | none => exact ⟨_, a3 l hl ho, b3 l hl ho⟩
  | some i => exact ⟨_, (a2 i (h i)).2 l hl ho, (b2 i (h' i)).2 l hl ho⟩

/-- C61: references to different locations share no byte, so threads which respect the ownership have no data race. -/
theorem C61_no_race (hL : C.L.WF) {w : World V} (hV : Valid C dv w) {p p' : Ref} (hp : InGrid C w p.loc) (hp' : InGrid C w p'.loc)
    (hne : p.loc ≠ p'.loc) : ∃ id addr n id' addr' n', p.bytes C w = some (id, addr, n) ∧ p'.bytes C w = some (id', addr', n') ∧
      ∀ byte : Int, ¬ (id = id' ∧ addr ≤ byte ∧ byte < addr + n ∧ addr' ≤ byte ∧ byte < addr' + n') := by
  obtain ⟨a, hR⟩ := hV.refines hL
  have key : ∀ p : Ref, InGrid C w p.loc → ∃ g e id m i, w.g p.s = some g ∧ g.data = some id ∧ selectSizes C.tr g.dim = .ok e ∧
      C.L[p.r]? = some m ∧ p.k < m.elems ∧ i < e.prod ∧
      p.bytes C w = some (id, ((slot e.prod (offset C.L p.r) m.ty.size p.k i : Nat) : Int), m.ty.size) ∧
      ∃ px py pz, p.x + p.X = (px : Nat) ∧ p.y + p.Y = (py : Nat) ∧ p.z + p.Z = (pz : Nat) ∧ px < e.x ∧ py < e.y ∧ pz < e.z ∧
        i = lin e px py pz := by
    intro p hp
    obtain ⟨ag, m, h1, h2, h3, h4⟩ := (inA_iff hR p.loc).2 hp
    obtain ⟨g, hg, hok⟩ := hR.grid h1
    obtain ⟨hd, e, id, b, he, hid, -⟩ := hok
    have hf := selectSizes_fits he
    simp only [Ref.loc] at h2 h3 h4 hg
    obtain ⟨px, hx⟩ := Int.eq_ofNat_of_zero_le h4.1
    obtain ⟨py, hy⟩ := Int.eq_ofNat_of_zero_le h4.2.2.1
    obtain ⟨pz, hz⟩ := Int.eq_ofNat_of_zero_le h4.2.2.2.2.1
    have bx : px < e.x := Nat.lt_of_lt_of_le (by omega) hf.1
    have by' : py < e.y := Nat.lt_of_lt_of_le (by omega) hf.2.1
    have bz : pz < e.z := Nat.lt_of_lt_of_le (by omega) hf.2.2
    refine ⟨g, e, id, m, lin e px py pz, hg, hid, by rw [hd]; exact he, h2, h3, lin_lt bx by' bz, ?_,
      px, py, pz, hx, hy, hz, bx, by', bz, rfl⟩
    unfold Ref.bytes
    simp only [hg, h2, hd, he, hid]
    rw [userRef_slot hL (shift_At (e := e) hx hy hz) h2 h3]
    rfl
  obtain ⟨g, e, id, m, i, h1, h2, h3, h4, h5, h6, h7, px, py, pz, hx, hy, hz, bx, by', bz, rfl⟩ := key p hp
  obtain ⟨g', e', id', m', i', k1, k2, k3, k4, k5, k6, k7, px', py', pz', hx', hy', hz', bx', by'', bz', rfl⟩ := key p' hp'
  refine ⟨_, _, _, _, _, _, h7, k7, ?_⟩
  rintro byte ⟨rfl, hb⟩
  have hs := hR.own _ _ _ _ _ h1 k1 h2 k2
  rw [← hs, h1] at k1; cases k1
  rw [h3] at k3; cases k3
  have := slot_disjoint (P := e.prod) h4 k4 h5 k5 h6 k6 (by
    rintro ⟨e1, e2, e3⟩
    obtain ⟨q1, q2, q3⟩ := lin_inj bx by' bx' by'' e3
    apply hne
    obtain ⟨s, x, y, z, X, Y, Z, r, k⟩ := p
    obtain ⟨s', x', y', z', X', Y', Z', r', k'⟩ := p'
    simp only at *
    simp only [Ref.loc]
    subst hs e1 e2 q1 q2 q3
    congr 1 <;> omega)
  unfold Block.Disj at this
  omega

/-- All locations have values. -/
theorem exists_store (hL : C.L.WF) {w : World V} (hV : Valid C dv w) : ∃ σ : Loc → V, ∀ l, InGrid C w l → ValueIs C w l (σ l) := by
  obtain ⟨a, hR⟩ := hV.refines hL
  refine ⟨valA dv a, fun l hl => ?_⟩
  have := peek_step (dv := dv) hL hR (p := ⟨l.s, l.x, l.y, l.z, 0, 0, 0, l.r, l.k⟩) (by simpa [Ref.loc] using (inA_iff hR l).2 hl)
  simpa [ValueIs, Ref.loc] using this

/-! ### get and set -/

/-- The grid and the coordinate of a call exist. -/
def Call.InGrid (C : Cfg V) (w : World V) : Call V → Prop
  | .get s x y z => ∃ d, DimsAre C w s d ∧ InDim d x y z
  | .set s x y z _ => ∃ d, DimsAre C w s d ∧ InDim d x y z

/-- The struct of a thread before its call. -/
def Call.before (fresh : Cell V) : Call V → Cell V
  | .get _ _ _ _ => fresh
  | .set _ _ _ _ c => c

/-- The struct of a thread after its call. -/
def Call.after (L : Layout V) (a : AWorld V) (fresh : Cell V) : Call V → Cell V
  | .get s x y z =>
    match a s with
    | .grid g => overlay L (g.cells x y z) fresh
    | _ => fresh
  | .set _ _ _ _ c => c

/-- The grid after a call. -/
def Call.slot (a : AWorld V) : Call V → ASlot V
  | .get s _ _ _ => a s
  | .set s x y z c =>
    match a s with
    | .grid g => .grid { g with cells := Spec.setRow g.cells x y z 1 (fun _ => c) }
    | o => o

theorem get_step (hL : C.L.WF) {w : World V} {a : AWorld V} (hR : R C w a) {s x y z : Nat} {g : AGrid V} (hs : a s = .grid g)
    (hin : InDim g.dim x y z) (t : Cell V) : w.step C (.get s x y z [t]) = .ok (w, .cells [overlay C.L (g.cells x y z) t]) :=
  hR.cellIs hL hs hin t

theorem set_step (hL : C.L.WF) (dv : V) {w : World V} {a : AWorld V} (hR : R C w a) {s x y z : Nat} {g : AGrid V} (hs : a s = .grid g)
    (hin : InDim g.dim x y z) (c : Cell V) : ∃ w', w.step C (.set s x y z [c]) = .ok (w', .unit) ∧
      R C w' (World.upd a s (.grid { g with cells := Spec.setRow g.cells x y z 1 (fun _ => c) })) := by
  obtain ⟨h1, h2, h3⟩ := hin
  obtain ⟨w', out, a', k1, k2, k3⟩ := step_refines hL dv hR (.set s x y z [c]) ⟨g, hs, by simp; omega, h2, h3⟩
  cases k2 with
  | set _ _ _ _ _ new g' hg' hn =>
    rw [hs] at hg'; cases hg'
    refine ⟨w', k1, ?_⟩
    have e : Spec.setRow g.cells x y z 1 (fun _ => c) = Spec.setRow g.cells x y z [c].length new := by
      funext x' y' z'
      simp only [Spec.setRow, List.length_singleton]
      split
      · have := hn 0 (by simp)
        rename_i h
        rw [show x' - x = 0 by omega]
        simpa using this
      · rfl
    rw [e]; exact k3

/-- The coordinate of a call is inside of the dimensions. -/
def Call.Inside (d : Ext) : Call V → Prop
  | .get _ x y z => InDim d x y z
  | .set _ x y z _ => InDim d x y z

theorem Call.grid {w : World V} {a : AWorld V} (hR : R C w a) {c : Call V} (hc : c.InGrid C w) :
    ∃ g, a c.s = .grid g ∧ c.Inside g.dim := by
  cases c with
  | get s x y z =>
    obtain ⟨d, h1, h2⟩ := hc
    obtain ⟨g, k1, rfl⟩ := hR.of_dims h1 (ne_zero_of_inDim h2)
    exact ⟨g, k1, h2⟩
  | set s x y z c =>
    obtain ⟨d, h1, h2⟩ := hc
    obtain ⟨g, k1, rfl⟩ := hR.of_dims h1 (ne_zero_of_inDim h2)
    exact ⟨g, k1, h2⟩

/-- The phase after a number of steps. -/
def phaseAt : Nat → Phase
  | 0 => .start
  | 1 => .staged
  | 2 => .done
  | _ => .returned

/-- State of thread `i` after `n` of its steps. -/
structure Good (C : Cfg V) (calls : Nat → Call V) (fresh : Nat → Cell V) (a0 a : AWorld V) (σ : Shared V) (i n : Nat) : Prop where
  phase : σ.phase i = phaseAt n
  ptr : n = 1 → σ.ptr (calls i).s = some i
  cell : n < 3 → σ.cell i = some (if n < 2 then (calls i).before (fresh i) else (calls i).after C.L a0 (fresh i))
  result : 3 ≤ n → σ.result i = some ((calls i).after C.L a0 (fresh i))
  slot : a (calls i).s = if n < 2 then a0 (calls i).s else (calls i).slot a0

theorem calls_ok (hL : C.L.WF) (dv : V) {calls : Nat → Call V} {act : Nat → Prop}
    (hinj : ∀ i j, act i → act j → (calls i).s = (calls j).s → i = j) {fresh : Nat → Cell V}
    {w0 : World V} {a0 : AWorld V} (hR0 : R C w0 a0) (hc : ∀ i, act i → (calls i).InGrid C w0) (sched : List Nat)
    (hact : ∀ i ∈ sched, act i) (n : Nat → Nat) {σ : Shared V} {a : AWorld V} (hR : R C σ.w a)
    (hg : ∀ i, act i → Good C calls fresh a0 a σ i (n i)) :
    ∃ σ' a', σ.exec C calls sched = .ok σ' ∧ R C σ'.w a' ∧ ∀ i, act i → Good C calls fresh a0 a' σ' i (n i + sched.count i) := by
  induction sched generalizing n σ a with
  | nil => exact ⟨σ, a, rfl, hR, hg⟩
  | cons i sched ih =>
    have key : ∃ σ1 a1, σ.advance C calls i = .ok σ1 ∧ R C σ1.w a1 ∧
        ∀ j, act j → Good C calls fresh a0 a1 σ1 j (if j = i then n j + 1 else n j) := by
      have hai := hact i List.mem_cons_self
      have hi := hg i hai
      unfold Shared.advance
      rw [hi.phase]
      match hn : n i with
      | 0 =>
        refine ⟨_, a, rfl, hR, fun j haj => ?_⟩
        by_cases hj : j = i
        · subst hj
          simp only [if_true, hn]
          rw [hn] at hi
          exact ⟨by simp [upd_self, phaseAt], fun _ => by simp [upd_self], fun _ => by simpa using hi.cell (by omega),
            fun h => by omega, by simpa using hi.slot⟩
        · have hjs : (calls j).s ≠ (calls i).s := fun h => hj (hinj _ _ haj hai h)
          have := hg j haj
          rw [if_neg hj]
          exact ⟨by simp only [upd_ne _ _ hj]; exact this.phase, fun h => by simp only [upd_ne _ _ hjs]; exact this.ptr h,
            this.cell, this.result, this.slot⟩
      | 1 =>
        rw [hn] at hi
        have hp := hi.ptr rfl
        have hcell := hi.cell (by omega)
        have hslot := hi.slot
        simp only [show (1 : Nat) < 2 by omega, if_true] at hcell hslot
        obtain ⟨g, k1, k2⟩ := Call.grid hR0 (hc i hai)
        rw [k1] at hslot
        simp only [phaseAt]
        unfold Shared.functor
        rw [hp]
        simp only [hcell]
        cases hcall : calls i with
        | get s x y z =>
          rw [hcall] at hslot k1 k2
          simp only [Call.before]
          rw [get_step hL hR (s := s) (g := g) hslot k2]
          refine ⟨_, a, rfl, hR, fun j haj => ?_⟩
          by_cases hj : j = i
          · subst hj
            simp only [if_true, hn]
            refine ⟨by simp [upd_self, phaseAt], fun h => by omega, fun _ => ?_, fun h => by omega, ?_⟩
            · simp only [Call.s] at k1
              simp [upd_self, hcall, Call.after, k1]
            · simp only [Call.s] at k1 hslot
              simp [hcall, Call.slot, Call.s, hslot, k1]
          · have := hg j haj
            rw [if_neg hj]
            exact ⟨by simp only [upd_ne _ _ hj]; exact this.phase, this.ptr,
              fun h => by simp only [upd_ne _ _ hj]; exact this.cell h, this.result, this.slot⟩
        | set s x y z c =>
          rw [hcall] at hslot k1 k2
          simp only [Call.before]
          obtain ⟨w', m1, m2⟩ := set_step hL dv hR (g := g) hslot k2 c
          simp only [Call.s] at m1 m2 k1 hslot
          rw [m1]
          refine ⟨_, _, rfl, m2, fun j haj => ?_⟩
          by_cases hj : j = i
          · subst hj
            simp only [if_true, hn]
            refine ⟨by simp [upd_self, phaseAt], fun h => by omega, fun _ => ?_, fun h => by omega, ?_⟩
            · rw [hcell]; simp [hcall, Call.after, Call.before]
            · simp [hcall, Call.slot, Call.s, upd_self, k1]
          · have hjs : (calls j).s ≠ s := fun h => hj (hinj _ _ haj hai (by rw [h, hcall]; rfl))
            have := hg j haj
            rw [if_neg hj]
            exact ⟨by simp only [upd_ne _ _ hj]; exact this.phase, this.ptr, this.cell, this.result,
              by rw [upd_ne _ _ hjs]; exact this.slot⟩
      | 2 =>
        rw [hn] at hi
        refine ⟨_, a, rfl, hR, fun j haj => ?_⟩
        by_cases hj : j = i
        · subst hj
          simp only [if_true, hn]
          exact ⟨by simp [upd_self, phaseAt], fun h => by omega, fun h => by omega,
            fun _ => by simpa [upd_self] using hi.cell (by omega), by simpa using hi.slot⟩
        · have := hg j haj
          rw [if_neg hj]
          exact ⟨by simp only [upd_ne _ _ hj]; exact this.phase, this.ptr,
            fun h => by simp only [upd_ne _ _ hj]; exact this.cell h,
            fun h => by simp only [upd_ne _ _ hj]; exact this.result h, this.slot⟩
      | k + 3 =>
        rw [hn] at hi
        refine ⟨_, a, rfl, hR, fun j haj => ?_⟩
        by_cases hj : j = i
        · subst hj
          simp only [if_true, hn]
          exact ⟨hi.phase, fun h => by omega, fun h => by omega, fun _ => hi.result (by omega), by
            have := hi.slot
            rw [if_neg (by omega)] at this ⊢
            exact this⟩
        · rw [if_neg hj]; exact hg j haj
    obtain ⟨σ1, a1, k1, k2, k3⟩ := key
    have hcount : ∀ j, (if j = i then n j + 1 else n j) + sched.count j = n j + (i :: sched).count j := by
      intro j
      rw [List.count_cons]
      by_cases hj : j = i
      · subst hj; simp; omega
      · have : ¬ (i == j) = true := by simp; exact fun h => hj h.symm
        simp [hj, this]
    obtain ⟨σ2, a2, m1, m2, m3⟩ := ih (fun j hj => hact j (List.mem_cons_of_mem _ hj)) (fun j => if j = i then n j + 1 else n j) k2 k3
    refine ⟨σ2, a2, ?_, m2, fun j haj => by rw [← hcount j]; exact m3 j haj⟩
    simp only [Shared.exec, k1, m1]

/-- C61 for calls of `get` and `set`, if each thread has its own grid. Missing: threads which call the same grid, see below. -/
theorem C61_calls_partial (hL : C.L.WF) {w : World V} (hV : Valid C dv w) {calls : Nat → Call V}
    (sched : List Nat) (hinj : ∀ i ∈ sched, ∀ j ∈ sched, (calls i).s = (calls j).s → i = j)
    (hc : ∀ i ∈ sched, (calls i).InGrid C w) (fresh : Nat → Cell V) :
    ∃ σ, (Shared.initial w calls fresh).exec C calls sched = .ok σ ∧ ∀ i, 3 ≤ sched.count i →
      match calls i with
      | .get s x y z => ∃ c, CellIs C w s x y z c ∧ σ.result i = some (overlay C.L c (fresh i))
      | .set s x y z c => CellIs C σ.w s x y z c := by
  obtain ⟨a0, hR⟩ := hV.refines hL
  obtain ⟨σ, a, h1, h2, h3⟩ := calls_ok hL dv (act := (· ∈ sched)) (fun i j hi hj => hinj i hi j hj) (fresh := fresh) hR hc sched
    (fun _ h => h) (fun _ => 0) (σ := Shared.initial w calls fresh) (a := a0) hR
    (fun i _ => ⟨rfl, fun h => by omega, fun _ => by simp only [Shared.initial]; cases calls i <;> rfl, fun h => by omega, by simp⟩)
  refine ⟨σ, h1, fun i hi => ?_⟩
  have him : i ∈ sched := List.count_pos_iff.1 (by omega)
  have hg := h3 i him
  obtain ⟨g, k1, k2⟩ := Call.grid hR (hc i him)
  have hres := hg.result (by omega)
  have hslot := hg.slot
  rw [if_neg (by omega)] at hslot
  cases hcall : calls i with
  | get s x y z =>
    rw [hcall] at k1 k2 hres
    simp only [Call.s] at k1
    refine ⟨g.cells x y z, hR.cellIs hL k1 k2, ?_⟩
    rw [hres]; simp [Call.after, k1]
  | set s x y z c =>
    rw [hcall] at k1 k2 hslot
    simp only [Call.s] at k1 hslot
    rw [Call.slot, k1] at hslot
    have := h2.cellIs hL hslot (x := x) (y := y) (z := z) k2
    simpa [Spec.setRow] using this

/-- C61 is false for calls of `get` on the same grid: both threads set the pointer in the staging buffer before one of them uses it, and
    the first one returns whatever its local variable contained. -/
theorem C61_false_get (hL : C.L.WF) {w : World V} (hV : Valid C dv w) {s : Nat} {d : Ext} (hd : DimsAre C w s d) {x y z x' y' z' : Nat}
    (hin : InDim d x y z) (hin' : InDim d x' y' z') (fresh : Nat → Cell V) :
    let calls : Nat → Call V := fun i => if i = 0 then .get s x y z else .get s x' y' z'
    ∃ σ, (Shared.initial w calls fresh).exec C calls [0, 1, 0, 1, 0, 1] = .ok σ ∧ σ.phase 0 = .returned ∧ σ.phase 1 = .returned ∧
      σ.result 0 = some (fresh 0) := by
  obtain ⟨a, hR⟩ := hV.refines hL
  obtain ⟨g, hs, rfl⟩ := hR.of_dims hd (ne_zero_of_inDim hin)
  intro calls
  simp only [Shared.exec, Shared.advance, Shared.initial, Shared.functor, calls, Call.s, World.upd, get_step hL hR hs hin,
    get_step hL hR hs hin', if_true, Nat.one_ne_zero, Nat.zero_ne_one, if_false]
  exact ⟨_, rfl, rfl, rfl, rfl⟩

/-- C61 is false for calls of `get` on the same grid: a thread may write to the local variable of another one which has returned. -/
theorem C61_false_dangling (hL : C.L.WF) {w : World V} (hV : Valid C dv w) {s : Nat} {d : Ext} (hd : DimsAre C w s d)
    {x y z x' y' z' : Nat} (hin : InDim d x y z) (hin' : InDim d x' y' z') (fresh : Nat → Cell V) :
    let calls : Nat → Call V := fun i => if i = 0 then .get s x y z else .get s x' y' z'
    (Shared.initial w calls fresh).exec C calls [0, 1, 1, 1, 0] = .error .dangling := by
  obtain ⟨a, hR⟩ := hV.refines hL
  obtain ⟨g, hs, rfl⟩ := hR.of_dims hd (ne_zero_of_inDim hin)
  intro calls
  simp only [Shared.exec, Shared.advance, Shared.initial, Shared.functor, calls, Call.s, World.upd, get_step hL hR hs hin,
    get_step hL hR hs hin', if_true, Nat.one_ne_zero, Nat.zero_ne_one, if_false]

/-- C61 is false for calls of `set` on the same grid, even for different cells: a cell may get the struct of the other thread. -/
theorem C61_false_set (hL : C.L.WF) {w : World V} (hV : Valid C dv w) {s : Nat} {d : Ext} (hd : DimsAre C w s d) {x y z x' y' z' : Nat}
    (hin : InDim d x y z) (hin' : InDim d x' y' z') (c c' : Cell V) (fresh : Nat → Cell V) :
    let calls : Nat → Call V := fun i => if i = 0 then .set s x y z c else .set s x' y' z' c'
    ∃ σ, (Shared.initial w calls fresh).exec C calls [0, 1, 0, 1, 0, 1] = .ok σ ∧ σ.phase 0 = .returned ∧ σ.phase 1 = .returned ∧
      CellIs C σ.w s x y z c' := by
  obtain ⟨a, hR⟩ := hV.refines hL
  obtain ⟨g, hs, rfl⟩ := hR.of_dims hd (ne_zero_of_inDim hin)
  intro calls
  obtain ⟨w1, k1, k2⟩ := set_step hL dv hR hs hin c'
  obtain ⟨w2, m1, m2⟩ := set_step hL dv k2 (upd_self _ _ _) (x := x') (y := y') (z := z') hin' c'
  simp only [Shared.exec, Shared.advance, Shared.initial, Shared.functor, calls, Call.s, World.upd, k1, m1, if_true, Nat.one_ne_zero,
    Nat.zero_ne_one, if_false]
  refine ⟨_, rfl, rfl, rfl, ?_⟩
  have := m2.cellIs hL (upd_self _ _ _) (x := x) (y := y) (z := z) hin
  have e : Spec.setRow (Spec.setRow g.cells x y z 1 fun _ => c') x' y' z' 1 (fun _ => c') x y z = c' := by
    unfold Spec.setRow
    split
    · rfl
    · rw [if_pos ⟨rfl, rfl, Nat.le_refl _, by omega⟩]
  simpa only [e] using this

/-- C61: calls on the same grid have a data race, whatever their arguments: both begin with a write to the pointer in the staging
    buffer. -/
theorem C61_false_race (w : World V) (calls : Nat → Call V) (fresh : Nat → Cell V) (i j : Nat) (h : (calls i).s = (calls j).s) :
    (Shared.initial w calls fresh).access calls i = some (.write (calls i).s) ∧
    (Shared.initial w calls fresh).access calls j = some (.write (calls i).s) := by
  rw [h]; exact ⟨by simp [Shared.access, Shared.initial, h], by simp [Shared.access, Shared.initial]⟩

/-! ### Examples -/

/-- Two threads read the same cell, and write to different ones. -/
def demoT : Nat → Prog Int Int
  | 0 => .peek ⟨0, 1, 1, 1, 0, 0, 0, 1, 2⟩ fun v => .poke ⟨0, 1, 1, 1, -1, 0, 0, 1, 2⟩ (v + 1) (.ret v)
  | 1 => .peek ⟨0, 2, 1, 1, -1, 0, 0, 1, 2⟩ fun v => .poke ⟨0, 2, 1, 1, 0, 0, 0, 1, 2⟩ (v + 2)
      (.peek ⟨0, 2, 1, 1, 0, 0, 0, 1, 2⟩ fun v => .ret v)
  | _ => .ret 0

/-- Who writes where. -/
def demoOwn (l : Loc) : Option Nat :=
  if l = ⟨0, 0, 1, 1, 1, 2⟩ then some 0 else if l = ⟨0, 2, 1, 1, 1, 2⟩ then some 1 else none

theorem demo_in (x : Int) (h : 0 ≤ x ∧ x < 3) : InGrid demoC demoW ⟨0, x, 1, 1, 1, 2⟩ :=
  ⟨_, ⟨⟨4, true⟩, some 3, 0⟩, demo_dims0, rfl, by simp [Member.elems], h.1, h.2, by simp, by simp, by simp, by simp⟩

theorem demoT_respects (i : Nat) : Respects (InGrid demoC demoW) demoOwn i (demoT i) := by
  match i with
  | 0 => exact ⟨demo_in 1 (by omega), .inl rfl, fun v => ⟨demo_in 0 (by omega), rfl, trivial⟩⟩
  | 1 => exact ⟨demo_in 1 (by omega), .inl rfl, fun v => ⟨demo_in 2 (by omega), rfl, demo_in 2 (by omega), .inr rfl, fun _ => trivial⟩⟩
  | _ + 2 => exact trivial

/-- The theorem applies, and the schedule lets both threads finish. -/
example : ∃ w' T' v, exec demoC demoW demoT [1, 0, 1, 0, 1] = .ok (w', T') ∧ T' 0 = .ret v ∧ T' 1 = .ret (v + 2) := by
  obtain ⟨σ, hσ⟩ := exists_store demoL_WF demo_valid
  obtain ⟨w', T', h1, h2, -⟩ := C61_parallel_partial demoL_WF demo_valid demoOwn demoT demoT_respects σ hσ [1, 0, 1, 0, 1]
  refine ⟨w', T', σ ⟨0, 1, 1, 1, 1, 2⟩, h1, (h2 0 (by simp [accesses, demoT])).1, ?_⟩
  rw [(h2 1 (by simp [accesses, demoT])).1]
  simp [alone, demoT, Ref.loc]

example (σ : Loc → Int) (hσ : ∀ l, InGrid demoC demoW l → ValueIs demoC demoW l (σ l)) :=
  C61_deterministic demoL_WF demo_valid demoOwn demoT demoT_respects σ hσ [1, 0, 1, 0, 1] [0, 0, 1, 1, 1]
    (fun i => match i with | 0 => by simp [accesses, demoT] | 1 => by simp [accesses, demoT] | _ + 2 => by simp [accesses, demoT])
    (fun i => match i with | 0 => by simp [accesses, demoT] | 1 => by simp [accesses, demoT] | _ + 2 => by simp [accesses, demoT])

example := C61_no_race demoL_WF demo_valid (p := ⟨0, 1, 1, 1, -1, 0, 0, 1, 2⟩) (p' := ⟨0, 2, 1, 1, 0, 0, 0, 1, 2⟩)
  (by simpa [Ref.loc] using demo_in 0 (by omega)) (by simpa [Ref.loc] using demo_in 2 (by omega)) (by decide)

/-- One thread reads from the first grid, another one writes to the second. -/
example := C61_calls_partial demoL_WF demo_valid (calls := fun i => if i = 0 then .get 0 1 1 1 else .set 1 4 1 0 demoCell) [0, 1, 1, 0, 1, 0]
  (by simp [Call.s]) (by
    have h0 : (∃ d, DimsAre demoC demoW 0 d ∧ InDim d 1 1 1) := ⟨_, demo_dims0, by simp [InDim]⟩
    have h1 : (∃ d, DimsAre demoC demoW 1 d ∧ InDim d 4 1 0) := ⟨_, demo_dims1, by simp [InDim]⟩
    simp [Call.InGrid, h0, h1]) (fun _ => demoCell)

example := C61_false_get demoL_WF demo_valid demo_dims0 (x := 1) (y := 1) (z := 1) (x' := 2) (y' := 0) (z' := 1) (by simp [InDim])
  (by simp [InDim]) (fun _ => demoCell)

example := C61_false_dangling demoL_WF demo_valid demo_dims0 (x := 1) (y := 1) (z := 1) (x' := 2) (y' := 0) (z' := 1) (by simp [InDim])
  (by simp [InDim]) (fun _ => demoCell)

example := C61_false_set demoL_WF demo_valid demo_dims0 (x := 1) (y := 1) (z := 1) (x' := 2) (y' := 0) (z' := 1) (by simp [InDim])
  (by simp [InDim]) demoCell (fun _ _ => 0) (fun _ => demoCell)

end Thr
end LFA
