import Verif.Props.DevThreads
import Verif.Props.DevVecThreads

/-
  Threads of the host which use containers in device memory can always finish (C41, C60, C86, C87).
-/
set_option linter.unusedSectionVars false
namespace LFA
namespace Prog
open ND
variable {Op Out ρ S : Type}

/-- What holds between the turns of threads: `b i` is what thread `i` knows about the containers. -/
structure Turns {ι α : Type} (rd wr : Op → List Nat) (own : Nat → Option ι) (Pre : (Nat → α) → Op → Prop)
    (Post : (Nat → α) → Op → (Nat → α) → Out → Prop) (R : S → (Nat → α) → Prop) (P : ι → Prog Op Out ρ) (w : S) (a : Nat → α)
    (b : ι → Nat → α) : Prop where
  rel : R w a
  safe : ∀ i, (P i).Safe Pre Post (b i)
  within : ∀ i, (P i).Within rd wr own i
  agree : ∀ i s, own s = some i ∨ own s = none → b i s = a s

section
variable {ι α : Type} [DecidableEq ι] {rd wr : Op → List Nat} {own : Nat → Option ι} {step : S → Op → ND (S × Out)}
  {Pre : (Nat → α) → Op → Prop} {Post : (Nat → α) → Op → (Nat → α) → Out → Prop} {R : S → (Nat → α) → Prop}

theorem Turns.turn (hloc : Local rd wr Pre Post)
    (hstep : ∀ {w a} op, R w a → Pre a op → Always (step w op) fun q => ∃ a', Post a op a' q.2 ∧ R q.1 a')
    {P : ι → Prog Op Out ρ} {w : S} {a : Nat → α} {b : ι → Nat → α} (h : Turns rd wr own Pre Post R P w a b) {i : ι} {op : Op}
    {k : Out → Prog Op Out ρ} (e : P i = .call op k) :
    Always (step w op) fun q => ∃ a' b', Turns rd wr own Pre Post R (fun j => if j = i then k q.2 else P j) q.1 a' b' := by
  have s1 := h.safe i
  have s2 := h.within i
  rw [e] at s1 s2
  obtain ⟨own1, own2, s2⟩ := s2
  have hag : ∀ s, s ∈ rd op ∨ s ∈ wr op → a s = b i s := by
    rintro s (hs | hs)
    · exact (h.agree i s (own2 s hs)).symm
    · exact (h.agree i s (.inl (own1 s hs))).symm
  refine (hstep op h.rel (hloc.pre hag s1.1)).mono ?_
  rintro ⟨w', out⟩ ⟨a', k2, k3⟩
  obtain ⟨b', k4, k5, k6⟩ := hloc.post (fun s hs => (hag s hs).symm) k2
  refine ⟨a', fun j => if j = i then b' else b j, k3, fun j => ?_, fun j => ?_, fun j s hs => ?_⟩
  · by_cases hj : j = i
    · simp only [if_pos hj]; exact s1.2 _ _ k4
    · simp only [if_neg hj]; exact h.safe j
  · by_cases hj : j = i
    · subst hj; simp only [if_true]; exact s2 out
    · simp only [if_neg hj]; exact h.within j
  · by_cases hw : s ∈ wr op
    · by_cases hj : j = i
      · simp only [if_pos hj]; exact k5 s hw
      · rcases hs with hs | hs
        · rw [own1 s hw] at hs; injection hs with hs; exact absurd hs.symm hj
        · rw [own1 s hw] at hs; cases hs
    · rw [hloc.frame k2 s hw]
      by_cases hj : j = i
      · subst hj; simp only [if_true]; rw [k6 s hw]; exact h.agree _ s hs
      · simp only [if_neg hj]; exact h.agree j s hs

theorem Turns.interleaveND (hloc : Local rd wr Pre Post)
    (hstep : ∀ {w a} op, R w a → Pre a op → Always (step w op) fun q => ∃ a', Post a op a' q.2 ∧ R q.1 a') :
    ∀ (sched : List ι) {P : ι → Prog Op Out ρ} {w : S} {a : Nat → α} {b : ι → Nat → α}, Turns rd wr own Pre Post R P w a b →
      Always (interleaveND step sched P w) fun q => ∃ a' b', Turns rd wr own Pre Post R q.2 q.1 a' b'
  | [], _, _, a, b, h => Always.pure ⟨a, b, h⟩
  | i :: sched, P, w, a, b, h => by
    rw [Prog.interleaveND]
    cases e : P i with
    | ret r => exact Turns.interleaveND hloc hstep sched h
    | call op k =>
      refine (h.turn hloc hstep e).bind ?_
      rintro q ⟨a', b', h'⟩
      exact Turns.interleaveND hloc hstep sched h'

theorem interleaveND_append : ∀ (s1 s2 : List ι) {P P' : ι → Prog Op Out ρ} {w w' : S} {r}, Prog.interleaveND step s1 P w (.ok (w', P')) →
    Prog.interleaveND step s2 P' w' r → Prog.interleaveND step (s1 ++ s2) P w r
  | [], s2, P, P', w, w', r, h, h2 => by cases h; exact h2
  | i :: s1, s2, P, P', w, w', r, h, h2 => by
    rw [List.cons_append, Prog.interleaveND]
    rw [Prog.interleaveND] at h
    cases e : P i with
    | ret x => rw [e] at h; exact interleaveND_append s1 s2 h h2
    | call op k =>
      rw [e] at h
      obtain ⟨r1, h3, h4⟩ := h
      cases r1 with
      | error u => cases h4
      | ok q => exact ⟨.ok q, h3, interleaveND_append s1 s2 h4 h2⟩

theorem Turns.one (hloc : Local rd wr Pre Post)
    (hstep : ∀ {w a} op, R w a → Pre a op → Always (step w op) fun q => ∃ a', Post a op a' q.2 ∧ R q.1 a') (i : ι) :
    ∀ (p : Prog Op Out ρ) {P : ι → Prog Op Out ρ} {w : S} {a : Nat → α} {b : ι → Nat → α}, P i = p → Turns rd wr own Pre Post R P w a b →
      ∃ n w' P' a' b', Prog.interleaveND step (List.replicate n i) P w (.ok (w', P')) ∧ Turns rd wr own Pre Post R P' w' a' b' ∧
        (∃ r, P' i = .ret r) ∧ ∀ j, j ≠ i → P' j = P j
  | .ret r, P, w, a, b, e, h => ⟨0, w, P, a, b, rfl, h, ⟨r, e⟩, fun _ _ => rfl⟩
  | .call op k, P, w, a, b, e, h => by
    obtain ⟨⟨r, hr⟩, h2⟩ := h.turn hloc hstep e
    obtain ⟨q, rfl, a', b', h'⟩ := h2 r hr
    obtain ⟨n, w', P', a2, b2, k1, k2, k3, k4⟩ := Turns.one hloc hstep i (k q.2) (P := fun j => if j = i then k q.2 else P j) (by simp) h'
    refine ⟨n + 1, w', P', a2, b2, ?_, k2, k3, fun j hj => by rw [k4 j hj, if_neg hj]⟩
    rw [List.replicate_succ, Prog.interleaveND, e]
    exact ⟨.ok q, hr, k1⟩

theorem Turns.all (hloc : Local rd wr Pre Post)
    (hstep : ∀ {w a} op, R w a → Pre a op → Always (step w op) fun q => ∃ a', Post a op a' q.2 ∧ R q.1 a') :
    ∀ (is : List ι) {P : ι → Prog Op Out ρ} {w : S} {a : Nat → α} {b : ι → Nat → α}, Turns rd wr own Pre Post R P w a b →
      ∃ sched w' P', Prog.interleaveND step sched P w (.ok (w', P')) ∧ ∀ i, (i ∈ is ∨ ∃ r, P i = .ret r) → ∃ r, P' i = .ret r
  | [], P, w, _, _, _ => ⟨[], w, P, rfl, fun i h => h.elim (fun h => absurd h (List.not_mem_nil)) id⟩
  | i :: is, P, w, a, b, h => by
    obtain ⟨n, w1, P1, a1, b1, h1, h2, h3, h4⟩ := h.one hloc hstep i (P i) rfl
    obtain ⟨sched, w', P', k1, k2⟩ := Turns.all hloc hstep is h2
    refine ⟨List.replicate n i ++ sched, w', P', interleaveND_append _ _ h1 k1, fun j hj => ?_⟩
    by_cases hji : j = i
    · subst hji; exact k2 j (.inr h3)
    · refine k2 j (hj.imp (fun h => ?_) (fun h => by rw [h4 j hji]; exact h))
      exact (List.mem_cons.1 h).resolve_left hji

/-- After any turns, with any outcome of the calls so far, there are further turns after which all threads of a list have finished. -/
theorem Turns.finish (hloc : Local rd wr Pre Post)
    (hstep : ∀ {w a} op, R w a → Pre a op → Always (step w op) fun q => ∃ a', Post a op a' q.2 ∧ R q.1 a')
    {P : ι → Prog Op Out ρ} {w : S} {a : Nat → α} {b : ι → Nat → α} (h : Turns rd wr own Pre Post R P w a b) (is sched : List ι) {w1 : S}
    {P1 : ι → Prog Op Out ρ} (h1 : Prog.interleaveND step sched P w (.ok (w1, P1))) :
    ∃ more w' P', Prog.interleaveND step more P1 w1 (.ok (w', P')) ∧ Prog.interleaveND step (sched ++ more) P w (.ok (w', P')) ∧
      ∀ i ∈ is, ∃ r, P' i = .ret r := by
  obtain ⟨q, e, a', b', h'⟩ := (h.interleaveND hloc hstep sched).2 _ h1
  cases e
  obtain ⟨more, w', P', k1, k2⟩ := h'.all hloc hstep is
  exact ⟨more, w', P', k1, interleaveND_append _ _ h1 k1, fun i hi => k2 i (.inl hi)⟩

end
end Prog

namespace Dev
open ND Props
variable {V : Type} [DecidableEq V] {C : Cfg V} {dv : V} {ρ ι : Type} [DecidableEq ι]

/-- C60: threads which use device grids within the contracts can always go on until all of them have finished, so that
    `C60_threads_partial` speaks about all of them. Missing: as there. -/
theorem C60_finish_partial (hL : C.L.WF) (htr : ∀ m ∈ C.L, m.ty.triv = true) (own : Nat → Option ι) (P : ι → Prog (Op V) (Out V) ρ)
    (hown : ∀ i, (P i).Within gridReads gridWrites own i)
    (hP : ∀ i, (P i).Safe (fun a op => Spec.Pre C a op ∧ Limits op) (Post C dv) Spec.start) (is sched : List ι) {D : World V}
    {P1 : ι → Prog (Op V) (Out V) ρ} (h : Prog.interleaveND (step C) sched P World.init (.ok (D, P1))) :
    ∃ more D' P', Prog.interleaveND (step C) more P1 D (.ok (D', P')) ∧
      Prog.interleaveND (step C) (sched ++ more) P World.init (.ok (D', P')) ∧ ∀ i ∈ is, ∃ r, P' i = .ret r :=
  Prog.Turns.finish (R := DR C) (own := own) (dev_local (C := C) (dv := dv)) (fun op hR h => step_all hL htr dv hR op h.1 h.2)
    (b := fun _ => Spec.start) ⟨DR.init (C := C), hP, hown, fun _ _ _ => rfl⟩ is sched h

/-- C87: likewise for vectors in device memory. -/
theorem C87_finish_partial (hL : C.L.WF) (htr : ∀ m ∈ C.L, m.ty.triv = true) (h1 : OneD C.tr) (own : Nat → Option ι)
    (P : ι → Prog (VecOp V) (ArrOut V) ρ) (hown : ∀ i, (P i).Within vecReads vecWrites own i)
    (hP : ∀ i, (P i).Safe (VecPre C dv) (VecPost C dv) VecSpec.start) (is sched : List ι) {W : VecWorld V}
    {P1 : ι → Prog (VecOp V) (ArrOut V) ρ} (h : Prog.interleaveND (VecWorld.step C) sched P VecWorld.init (.ok (W, P1))) :
    ∃ more W' P', Prog.interleaveND (VecWorld.step C) more P1 W (.ok (W', P')) ∧
      Prog.interleaveND (VecWorld.step C) (sched ++ more) P VecWorld.init (.ok (W', P')) ∧ ∀ i ∈ is, ∃ r, P' i = .ret r :=
  Prog.Turns.finish (R := VDR C) (own := own) (devVec_local (C := C) (dv := dv)) (fun op hR h => vstep_all hL htr h1 dv hR op h)
    (b := fun _ => VecSpec.start) ⟨VDR.init (C := C), hP, hown, fun _ _ _ => rfl⟩ is sched h

/-- Any number of threads, each with a device vector of its own: the first hundred can finish, whatever has happened before. -/
example (sched : List Nat) {W : VecWorld Int} {P1 : Nat → Prog (VecOp Int) (ArrOut Int) (ArrOut Int)}
    (h : Prog.interleaveND (VecWorld.step demoV) sched (fun i => appendRead i 3) VecWorld.init (.ok (W, P1))) :=
  C87_finish_partial demoL_WF demoL_triv (C := demoV) (dv := 0) OneD.dflt some (fun i => appendRead i 3)
    (fun i => appendRead_within rfl 3) (fun i => appendRead_safe i (e := ⟨32, 1, 1⟩) (by decide) (by decide) (by decide))
    (List.range 100) sched h

/-- Likewise for device grids. -/
example (d : Nat → Ext) (hd : ∀ i, LaunchDims (d i)) (sched : List Nat) {D : World Int} {P1 : Nat → Prog (Op Int) (Out Int) (Option (Cell Int))}
    (h : Prog.interleaveND (step demoC) sched (fun i => lastCell i (d i) demoCell) World.init (.ok (D, P1))) :=
  C60_finish_partial demoL_WF demoL_triv (C := demoC) (dv := 0) some (fun i => lastCell i (d i) demoCell)
    (fun i => lastCell_within rfl (d i) demoCell) (fun i => Dev.lastCell_safe rfl (d i) (hd i) demoCell) (List.range 100) sched h

end Dev

namespace CA
open ND
variable {V : Type} {ρ ι : Type} [DecidableEq ι]

/-- C41: likewise for arrays in device memory. Missing: as in `C41_threads_partial`. -/
theorem C41_finish_partial (own : Nat → Option ι) (P : ι → Prog (Op V) (List (Option V)) ρ) (hown : ∀ i, (P i).Within reads writes own i)
    (hP : ∀ i, (P i).Safe Spec.Pre Post (fun _ => none)) (is sched : List ι) {w : World V} {P1 : ι → Prog (Op V) (List (Option V)) ρ}
    (h : Prog.interleaveND Dev.call sched P World.init (.ok (w, P1))) :
    ∃ more w' P', Prog.interleaveND Dev.call more P1 w (.ok (w', P')) ∧
      Prog.interleaveND Dev.call (sched ++ more) P World.init (.ok (w', P')) ∧ ∀ i ∈ is, ∃ r, P' i = .ret r :=
  Prog.Turns.finish (R := fun w a => Rel w a ∧ Dev.Bounded a) (own := own) (ca_local (V := V))
    (fun op hR h => call_always (op := op) hR.1 hR.2 h) (b := fun _ _ => none)
    ⟨⟨Rel.init, ⟨0, fun _ _ => rfl⟩⟩, hP, hown, fun _ _ _ => rfl⟩ is sched h

/-- Any number of threads which create an array each and read it back. -/
example (l : Nat → List Int) (hl : ∀ i, l i ≠ []) (sched : List Nat) {w : World Int}
    {P1 : Nat → Prog (Op Int) (List (Option Int)) (List (Option Int))}
    (h : Prog.interleaveND Dev.call sched (fun i => .call (.vec i (l i)) fun _ => .call (.save i) .ret) World.init (.ok (w, P1))) :=
  C41_finish_partial some (fun i => .call (.vec i (l i)) fun _ => .call (.save i) .ret)
    (fun i => ⟨by simp [writes], by simp [reads], fun out => ⟨by simp [writes], by simp [reads], fun out => trivial⟩⟩)
    (fun i => by
      refine ⟨⟨rfl, hl i⟩, ?_⟩
      rintro a1 out1 ⟨rfl, -⟩
      exact ⟨⟨((l i).length, (l i).map some), by simp [Spec.step, upd_self]⟩, fun _ _ _ => trivial⟩)
    (List.range 100) sched h

end CA
end LFA
