import Verif.Props.DevVec
import Verif.Props.DevThreads
import Verif.Props.VecClients

/-
  Threads of the host which use vectors in device memory (C86, C87).
-/
set_option linter.unusedSectionVars false
namespace LFA
namespace Dev
open ND Props
open LFA.World (upd)
variable {V : Type} [DecidableEq V] {C : Cfg V} {dv : V} {ρ ι : Type} [DecidableEq ι]

theorem devVec_local : Prog.Local vecReads vecWrites (VecPre C dv) (VecPost C dv) where
  pre {a b op} hag h := by
    obtain ⟨h1, h2, h3⟩ := h
    obtain ⟨⟨σ', out⟩, hst⟩ := Option.isSome_iff_exists.1 h1
    refine ⟨by rw [(vec_shape hag hst).1]; rfl, fun h => h2 ?_, h3⟩
    cases op with
    | resize s m =>
      obtain ⟨x, e, k1, k2⟩ := h
      exact ⟨x, e, by rw [← hag s (by simp [vecWrites])]; exact k1, k2⟩
    | push s c =>
      obtain ⟨x, e, k1, k2⟩ := h
      exact ⟨x, e, by rw [← hag s (by simp [vecWrites])]; exact k1, k2⟩
    | _ => exact h
  post {a b a' op out} hag h := by
    have key : ∀ {op' : VecOp V}, vecWrites op' = vecWrites op → vecReads op' = vecReads op →
        VecSpec.step C dv a op' = some (a', out) → ∃ b', VecSpec.step C dv b op' = some (b', out) ∧
          (∀ s ∈ vecWrites op, b' s = a' s) ∧ ∀ s, s ∉ vecWrites op → b' s = b s := by
      intro op' e1 e2 hst
      rw [← e1, ← e2] at hag
      refine ⟨_, (vec_shape hag hst).1, fun s hs => ?_, fun s hs => ?_⟩
      · rw [← e1] at hs; simp only [if_pos hs]
      · rw [← e1] at hs; simp only [if_neg hs]
    cases op with
    | newFill s n c =>
      rcases h with ⟨e, k1, rfl, rfl⟩ | ⟨e, k1, rfl, rfl⟩
      · exact ⟨b, .inl ⟨e, k1, rfl, rfl⟩, fun u hu => hag u (.inr hu), fun _ _ => rfl⟩
      · refine ⟨_, .inr ⟨e, k1, rfl, rfl⟩, fun u hu => ?_, fun u hu => ?_⟩
        · simp only [vecWrites, List.mem_singleton] at hu
          subst hu; simp [upd]
        · simp only [vecWrites, List.mem_singleton] at hu
          simp [upd, hu]
    | get s i t =>
      obtain ⟨t', h⟩ := h
      obtain ⟨b', k1, k2, k3⟩ := key (op' := .get s i t') rfl rfl h
      exact ⟨b', ⟨t', k1⟩, k2, k3⟩
    | _ => exact key rfl rfl h
  frame {a a' op out} h := by
    cases op with
    | newFill s n c =>
      rcases h with ⟨e, k1, rfl, rfl⟩ | ⟨e, k1, rfl, rfl⟩
      · exact fun _ _ => rfl
      · intro u hu
        simp only [vecWrites, List.mem_singleton] at hu
        simp [upd, hu]
    | get s i t =>
      obtain ⟨t', h⟩ := h
      exact (vec_shape (fun _ _ => rfl) h).2
    | _ => exact (vec_shape (fun _ _ => rfl) h).2

/-- C87 for threads of the host: each thread uses its own vectors in device memory, and queries those which no thread changes. Whatever
    turns the threads take, there is an outcome, no outcome is undefined behaviour, the result of each thread is one it may have if it
    runs alone, and its vectors then have the sizes and elements they have if it runs alone. Missing: as in `C87_partial`. -/
theorem C87_threads_partial (hL : C.L.WF) (htr : ∀ m ∈ C.L, m.ty.triv = true) (h1 : OneD C.tr) (own : Nat → Option ι)
    (P : ι → Prog (VecOp V) (ArrOut V) ρ) (hown : ∀ i, (P i).Within vecReads vecWrites own i)
    (hP : ∀ i, (P i).Safe (VecPre C dv) (VecPost C dv) VecSpec.start) (sched : List ι) :
    (∃ r, Prog.interleaveND (VecWorld.step C) sched P VecWorld.init r) ∧
    ∀ r, Prog.interleaveND (VecWorld.step C) sched P VecWorld.init r → ∃ W P', r = .ok (W, P') ∧
      ∀ i x, P' i = .ret x → ∃ σ, (P i).Allows (VecPost C dv) VecSpec.start x σ ∧
        ∀ s a, own s = some i → σ s = some a → W.n s = some a.n ∧
          ∀ k c t, a.cells k = some c → Always (VecWorld.step C W (.get s k t)) fun q =>
            ∃ t', q.2 = .cells [overlay C.L c t'] := by
  have := Prog.interleaveND_refines (R := VDR C) (own := own) (devVec_local (C := C) (dv := dv))
    (fun op hR h => vstep_all hL htr h1 dv hR op h) P VecSpec.start sched P (fun _ => VecSpec.start) (VDR.init (C := C)) hP hown
    (fun _ _ _ => rfl) (fun _ _ _ h => h)
  refine ⟨this.1, fun r hr => ?_⟩
  obtain ⟨q, e1, σ', b', h2, h3, h4⟩ := this.2 r hr
  refine ⟨q.1, q.2, e1, fun i x hx => ⟨b' i, h4 i x (b' i) (by rw [hx]; exact ⟨rfl, rfl⟩), fun s a hs hg => ?_⟩⟩
  rw [h3 i s (.inl hs)] at hg
  obtain ⟨g, k1, k2, k3⟩ := h2.vec hg
  refine ⟨k2, fun k c t hc => ?_⟩
  have hst : ∀ t, VecSpec.step C dv σ' (.get s k t) = some (σ', .cells [overlay C.L c t]) := by
    intro t
    simp only [VecSpec.step, VecSpec.onVec, hg, hc, Option.map_some]
    rw [← hg, upd_id]
  refine (vstep_all hL htr h1 dv h2 (.get s k t) ⟨by rw [hst]; rfl, fun h => h, trivial⟩).mono ?_
  rintro q ⟨σ2, ⟨t', j1⟩, _⟩
  rw [hst] at j1
  simp only [Option.some.injEq, Prod.mk.injEq] at j1
  exact ⟨t', j1.2.symm⟩

/-- Appends an element to a vector of its own, and returns what has been stored. -/
def appendRead (s n : Nat) : Prog (VecOp Int) (ArrOut Int) (ArrOut Int) :=
  .call (.newFill s n demoCell) fun
    | .unit => .call (.push s demoCell) fun _ => .call (.get s n demoCell) .ret
    | o => .ret o

theorem appendRead_within {own : Nat → Option ι} {i : ι} {s : Nat} (h : own s = some i) (n : Nat) :
    (appendRead s n).Within vecReads vecWrites own i := by
  refine ⟨by simp [vecWrites, h], by simp [vecReads], fun out => ?_⟩
  cases out <;> first
    | trivial
    | exact ⟨by simp [vecWrites, h], by simp [vecReads], fun out => ⟨by simp [vecWrites, h], by simp [vecReads], fun _ => trivial⟩⟩

theorem appendRead_safe (s : Nat) {n : Nat} {e : Ext} (hs : selectSizes demoV.tr ⟨n, 1, 1⟩ = .ok e) (hn : n < e.x) (he : e.x < 2 ^ 31) :
    (appendRead s n).Safe (VecPre demoV 0) (VecPost demoV 0) VecSpec.start := by
  have ht : ArrSpec.trivial demoV.L = true := by simp [ArrSpec.trivial, demoV, demoL]
  refine ⟨⟨by simp [VecSpec.step, VecSpec.create, VecSpec.start, hs], fun h => h, by show n < 2 ^ 31; omega⟩, fun σ out h => ?_⟩
  rcases h with ⟨e', k, _⟩ | ⟨e', k, rfl, rfl⟩
  · rw [hs] at k; cases k
  · rw [hs] at k; cases k
    have hst : ∀ cells : Nat → Option (Cell Int), VecSpec.step demoV 0 (upd VecSpec.start s (some ⟨n, e.x, true, n, cells⟩)) (.push s demoCell) =
        some (upd (upd VecSpec.start s (some ⟨n, e.x, true, n, cells⟩)) s (some ⟨n, e.x, true, n + 1, VecSpec.put cells n demoCell⟩),
          .unit) := by
      intro cells
      have hw : VecSpec.Writable demoV.L (⟨n, e.x, true, n, cells⟩ : AVec Int) n := ⟨hn, .inl ht⟩
      have hne : n ≠ e.x := by omega
      simp only [VecSpec.step, VecSpec.onVec, upd_self, VecSpec.push, if_true, if_neg hne, if_pos hw, Option.map_some]
    refine ⟨⟨by rw [hst]; rfl, ?_, trivial⟩, fun σ out h => ?_⟩
    · rintro ⟨a, e', h1, h2, _⟩
      rw [upd_self] at h1; cases h1
      simp only at h2; omega
    · change VecSpec.step _ _ _ _ = _ at h
      rw [hst] at h; cases h
      exact ⟨⟨by simp [VecSpec.step, VecSpec.onVec, upd_self, VecSpec.put], fun h => h, trivial⟩, fun _ _ _ => trivial⟩

/-- Any number of threads, each with a vector of its own. -/
example (sched : List Nat) := C87_threads_partial demoL_WF demoL_triv (C := demoV) (dv := 0) OneD.dflt some (fun i => appendRead i 3)
  (fun i => appendRead_within rfl 3) (fun i => appendRead_safe i (e := ⟨32, 1, 1⟩) (by decide) (by decide) (by decide)) sched

end Dev
end LFA
