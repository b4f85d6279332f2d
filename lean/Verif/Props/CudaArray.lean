import Verif.CudaArray

/-
  Properties of cuda_array (C41).
-/
namespace LFA
open CA
variable {V : Type}

/-- C41: each legal program behaves as one with vectors which have a capacity: it is free of undefined behavior, `save` yields the
    expected elements, sizes and capacities are the expected ones, each array has memory of its own, and no other memory is in use.
    Missing: fills beyond the launch limit (C41_false), empty vectors (C41_false_vec), lack of memory (C41_false_oom). -/
theorem C41_partial (prog : List (Op V × Ans)) (hl : Spec.Legal (fun _ => none) (prog.map Prod.fst)) (ha : AnsRun World.init prog) :
    ∃ w outs, run World.init prog = .ok (w, outs) ∧
      List.Forall₂ Agrees outs (Spec.run (fun _ => none) (prog.map Prod.fst)).2 ∧
      (∀ s, (w.arr s).map (fun x => (x.cap, x.size)) =
        ((Spec.run (fun _ => none) (prog.map Prod.fst)).1 s).map fun q => (q.1, q.2.length)) ∧
      (∀ s s' x x', w.arr s = some x → w.arr s' = some x' → x.ptr = x'.ptr → s = s') ∧
      (∀ p, w.heap p ≠ none ↔ ∃ s x, w.arr s = some x ∧ x.ptr = p) := by
  obtain ⟨w, outs, h1, h2, h3⟩ := run_ok Rel.init prog hl ha
  refine ⟨w, outs, h1, h3, fun s => ?_, h2.inj, fun p => ⟨fun hp => ?_, ?_⟩⟩
  · cases hx : w.arr s with
    | none => rw [(h2.hnone s).1 hx]; rfl
    | some x =>
      cases hy : (Spec.run (fun _ => none) (prog.map Prod.fst)).1 s with
      | none => rw [(h2.hnone s).2 hy] at hx; cases hx
      | some q =>
        obtain ⟨e1, e2, _⟩ := h2.hsome s x q.1 q.2 hx hy
        simp only [Option.map_some, e1, e2]
  · cases hm : w.heap p with
    | none => exact absurd hm hp
    | some m => exact h2.own p m hm
  · rintro ⟨s, x, hx, rfl⟩
    cases hy : (Spec.run (fun _ => none) (prog.map Prod.fst)).1 s with
    | none => rw [(h2.hnone s).2 hy] at hx; cases hx
    | some q =>
      obtain ⟨_, _, _, m, e4, _⟩ := h2.hsome s x q.1 q.2 hx hy
      rw [e4]; simp

/-- A program: fill, copy, enlarge, assign, save. -/
def caProg : List (Op Int × Ans) :=
  [(.fill 0 3 7, ⟨some 1, [0, 1, 2]⟩), (.copy 1 0, ⟨some 2, []⟩), (.resizeFill 1 5 8, ⟨some 3, []⟩), (.assign 0 1, ⟨some 4, []⟩),
   (.save 0, ⟨some 1, []⟩), (.del 0, ⟨some 1, []⟩), (.del 1, ⟨some 1, []⟩)]

theorem caProg_legal : Spec.Legal (fun _ => none) (caProg.map Prod.fst) :=
  ⟨⟨rfl, by decide⟩, ⟨rfl, _, rfl⟩, ⟨_, rfl⟩, ⟨⟨_, rfl⟩, _, rfl⟩, ⟨_, rfl⟩, ⟨_, rfl⟩, ⟨_, rfl⟩, trivial⟩

theorem caProg_ans : AnsRun World.init caProg := by
  refine ⟨⟨⟨1, rfl, rfl⟩, ?_⟩, fun w out h => ?_⟩
  · have := Interleave.sequential [] (by simp) (initThreads 3)
    rw [initThreads_flatten (by decide), show List.range 3 = [0, 1, 2] by decide, List.nil_append] at this
    exact this
  · cases h
    refine ⟨⟨⟨2, rfl, rfl⟩, trivial⟩, fun w out h => ?_⟩
    cases h
    refine ⟨⟨⟨3, rfl, rfl⟩, trivial⟩, fun w out h => ?_⟩
    cases h
    refine ⟨⟨⟨4, rfl, rfl⟩, trivial⟩, fun w out h => ?_⟩
    cases h
    refine ⟨⟨⟨1, rfl, rfl⟩, trivial⟩, fun w out h => ?_⟩
    cases h
    refine ⟨⟨⟨1, rfl, rfl⟩, trivial⟩, fun w out h => ?_⟩
    cases h
    exact ⟨⟨⟨1, rfl, rfl⟩, trivial⟩, fun w out h => trivial⟩

example : ∃ w outs, run World.init caProg = .ok (w, outs) ∧
    List.Forall₂ Agrees outs [[], [], [], [], [some 7, some 7, some 7, some 8, some 8], [], []] := by
  obtain ⟨w, outs, h1, h2, _⟩ := C41_partial caProg caProg_legal caProg_ans
  exact ⟨w, outs, h1, h2⟩

theorem Spec_run_append (a : AWorld V) : ∀ p q : List (Op V),
    Spec.run a (p ++ q) = ((Spec.run (Spec.run a p).1 q).1, (Spec.run a p).2 ++ (Spec.run (Spec.run a p).1 q).2)
  | [], _ => rfl
  | op :: p, q => by
    have := Spec_run_append (Spec.step a op).1 p q
    simp only [List.cons_append, Spec.run]
    rw [this]

theorem Spec_legal_append {a : AWorld V} : ∀ {p q : List (Op V)}, Spec.Legal a p → Spec.Legal (Spec.run a p).1 q → Spec.Legal a (p ++ q)
  | [], _, _, h => h
  | _ :: _, _, hp, h => ⟨hp.1, Spec_legal_append hp.2 h⟩

/-- `std::swap(s, t)` followed by `save` on both: the class has no moves, hence a copy and two assignments. -/
def swapProg (s t tmp : Nat) : List (Op V) := [.copy tmp s, .assign s t, .assign t tmp, .del tmp, .save s, .save t]

/-- C41 for `std::swap`: after any legal program arrays exchange their elements. -/
theorem C41_swap (prog : List (Op V)) (hl : Spec.Legal (fun _ => none) prog) {s t tmp : Nat} (hst : s ≠ t) {c c' : Nat}
    {l l' : List (Option V)} (hs : (Spec.run (fun _ => none) prog).1 s = some (c, l)) (ht : (Spec.run (fun _ => none) prog).1 t = some (c', l'))
    (htmp : (Spec.run (fun _ => none) prog).1 tmp = none) (whole : List (Op V × Ans)) (hw : whole.map Prod.fst = prog ++ swapProg s t tmp)
    (ha : AnsRun World.init whole) :
    ∃ w outs, run World.init whole = .ok (w, outs) ∧
      List.Forall₂ Agrees outs ((Spec.run (fun _ => none) prog).2 ++ [[], [], [], [], l', l]) := by
  have h1 : s ≠ tmp := by rintro rfl; rw [hs] at htmp; cases htmp
  have h2 : t ≠ tmp := by rintro rfl; rw [ht] at htmp; cases htmp
  generalize ha0 : (Spec.run (fun _ => none) prog).1 = a at *
  have e1 : Spec.step a (.copy tmp s) = (upd a tmp (some (l.length, l)), []) := by simp only [Spec.step, hs]
  have e2 : Spec.step (upd a tmp (some (l.length, l))) (.assign s t) =
      (upd (upd a tmp (some (l.length, l))) s (some (max c l'.length, l')), []) := by
    simp only [Spec.step, upd_ne _ _ h1, upd_ne _ _ h2, hs, ht]
  have e3 : Spec.step (upd (upd a tmp (some (l.length, l))) s (some (max c l'.length, l'))) (.assign t tmp) =
      (upd (upd (upd a tmp (some (l.length, l))) s (some (max c l'.length, l'))) t (some (max c' l.length, l)), []) := by
    simp only [Spec.step, upd_ne _ _ (Ne.symm hst), upd_ne _ _ h2, ht, upd_ne _ _ (Ne.symm h1), upd_self]
  have hleg : Spec.Legal a (swapProg s t tmp) := by
    refine ⟨⟨htmp, _, hs⟩, ?_⟩
    rw [e1]
    refine ⟨⟨⟨_, (upd_ne _ _ h1).trans hs⟩, _, (upd_ne _ _ h2).trans ht⟩, ?_⟩
    rw [e2]
    refine ⟨⟨⟨(c', l'), ?_⟩, (l.length, l), ?_⟩, ?_⟩
    · simp only [upd_ne _ _ (Ne.symm hst), upd_ne _ _ h2]; exact ht
    · simp only [upd_ne _ _ (Ne.symm h1), upd_self]
    rw [e3]
    refine ⟨⟨(l.length, l), ?_⟩, ⟨(max c l'.length, l'), ?_⟩, ⟨(max c' l.length, l), ?_⟩, trivial⟩
    · simp only [upd_ne _ _ (Ne.symm h2), upd_ne _ _ (Ne.symm h1), upd_self]
    · simp only [Spec.step, upd_ne _ _ h1, upd_ne _ _ hst, upd_self]
    · simp only [Spec.step, upd_ne _ _ h1, upd_ne _ _ hst, upd_self, upd_ne _ _ h2]
  have hrun : (Spec.run a (swapProg s t tmp)).2 = [[], [], [], [], l', l] := by
    simp only [swapProg, Spec.run, e1, e2, e3]
    simp only [Spec.step, upd_ne _ _ h1, upd_ne _ _ hst, upd_self, upd_ne _ _ h2]
  obtain ⟨w, outs, h, h', _⟩ := C41_partial whole (by rw [hw]; exact Spec_legal_append hl (by rw [ha0]; exact hleg)) ha
  refine ⟨w, outs, h, ?_⟩
  rw [hw, Spec_run_append] at h'
  simp only [ha0, hrun] at h'
  exact h'

/-- C41 is false for sizes beyond the range of `int`: the constructor does not initialize anything, and does not report it. -/
theorem C41_false (v : V) (p : Nat) (sched : List Nat) (hs : Interleave (initThreads (2 ^ 31)) sched) :
    ∃ w, step World.init (.fill 0 (2 ^ 31) v) ⟨some p, sched⟩ = .ok (w, []) ∧
      step w (.save 0) ⟨none, []⟩ = .ok (w, List.replicate (2 ^ 31) none) ∧
      ¬ Agrees (List.replicate (2 ^ 31) none) (Spec.step (Spec.step (fun _ => none) (.fill 0 (2 ^ 31) v)).1 (.save 0)).2 := by
  have hnil : initThreads (2 ^ 31) = [] := by
    unfold initThreads threads
    rw [if_neg (by decide)]
    rfl
  have hsched : sched = [] := by
    have := hs.perm
    rw [hnil, List.flatten_nil, List.perm_nil] at this
    exact this
  subst hsched
  generalize hn : (2 : Nat) ^ 31 = n
  have hpos : 0 < n := by rw [← hn]; decide
  refine ⟨⟨upd (fun _ => none) 0 (some ⟨n, n, p⟩), upd (fun _ => none) p (some (List.replicate n none))⟩, rfl, ?_, ?_⟩
  · simp only [step, upd_self]
    rw [fromDevice_ok (upd_self _ _ _) (by simp)]
    simp [Except.bind]
  · intro h
    have := h.2 0 v (by simp only [Spec.step, upd_self, List.getElem?_replicate]; rw [if_pos hpos])
    rw [List.getElem?_replicate, if_pos hpos] at this
    cases this

/-- There is such a schedule. -/
example : Interleave (initThreads (2 ^ 31)) (initThreads (2 ^ 31)).flatten := Interleave.sequential [] (by simp) _

/-- Two arrays of one and two elements are exchanged. -/
def caSwap : List (Op Int × Ans) :=
  [(.host 0 [7] 1, ⟨some 1, []⟩), (.vec 1 [8, 9], ⟨some 2, []⟩), (.copy 2 0, ⟨some 3, []⟩), (.assign 0 1, ⟨some 4, []⟩),
   (.assign 1 2, ⟨some 5, []⟩), (.del 2, ⟨some 5, []⟩), (.save 0, ⟨some 5, []⟩), (.save 1, ⟨some 5, []⟩)]

example : ∃ w outs, run World.init caSwap = .ok (w, outs) ∧
    List.Forall₂ Agrees outs [[], [], [], [], [], [], [some 8, some 9], [some 7]] := by
  refine C41_swap [.host 0 [7] 1, .vec 1 [8, 9]] ⟨⟨rfl, by decide⟩, ⟨rfl, by simp⟩, trivial⟩ (s := 0) (t := 1) (tmp := 2) (by decide) rfl rfl rfl
    caSwap rfl ⟨⟨⟨1, rfl, rfl⟩, trivial⟩, fun w out h => ?_⟩
  cases h
  refine ⟨⟨⟨2, rfl, rfl⟩, trivial⟩, fun w out h => ?_⟩
  cases h
  refine ⟨⟨⟨3, rfl, rfl⟩, trivial⟩, fun w out h => ?_⟩
  cases h
  refine ⟨⟨⟨4, rfl, rfl⟩, trivial⟩, fun w out h => ?_⟩
  cases h
  refine ⟨⟨⟨5, rfl, rfl⟩, trivial⟩, fun w out h => ?_⟩
  cases h
  refine ⟨⟨⟨5, rfl, rfl⟩, trivial⟩, fun w out h => ?_⟩
  cases h
  refine ⟨⟨⟨5, rfl, rfl⟩, trivial⟩, fun w out h => ?_⟩
  cases h
  exact ⟨⟨⟨5, rfl, rfl⟩, trivial⟩, fun w out h => trivial⟩

/-- C41 is false for empty vectors: the constructor accesses the first element. -/
theorem C41_false_vec (w : World V) (s p : Nat) : step w (.vec s []) ⟨some p, []⟩ = .error .oob := rfl

/-- C41 is false if there is no memory: an indeterminate pointer is used. -/
theorem C41_false_oom (w : World V) (s n : Nat) : step w (.new s n) ⟨none, []⟩ = .error .indet := rfl

end LFA
