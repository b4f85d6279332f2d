import Verif.Props.DevClients
import Verif.Props.Concurrent

/-
  Threads of the host which use grids and arrays in the memory of a CUDA device (C41, C60, C86).
-/
set_option linter.unusedSectionVars false
namespace LFA

namespace Prog
open ND
variable {Op Out ρ S : Type}

/-- As `interleave`, where calls have several outcomes: threads of the host which call the member functions of soa_grid.hpp:90-505
    (with cuda_allocator.hpp:38-58) or cuda_array.hpp:53-217. Calls are atomic here, as there. Kernels and copies of all threads are
    issued to the same default stream, so they run one after the other anyway. -/
def interleaveND {ι : Type} [DecidableEq ι] (step : S → Op → ND (S × Out)) :
    List ι → (ι → Prog Op Out ρ) → S → ND (S × (ι → Prog Op Out ρ))
  | [], P, s => pure (s, P)
  | i :: sched, P, s =>
    match P i with
    | .ret _ => interleaveND step sched P s
    | .call op k => step s op >>= fun q => interleaveND step sched (fun j => if j = i then k q.2 else P j) q.1

theorem interleaveND_refines {ι α : Type} [DecidableEq ι] {rd wr : Op → List Nat} {own : Nat → Option ι}
    {step : S → Op → ND (S × Out)} {Pre : (Nat → α) → Op → Prop} {Post : (Nat → α) → Op → (Nat → α) → Out → Prop}
    {R : S → (Nat → α) → Prop} (hloc : Local rd wr Pre Post)
    (hstep : ∀ {w a} op, R w a → Pre a op → Always (step w op) fun q => ∃ a', Post a op a' q.2 ∧ R q.1 a')
    (P0 : ι → Prog Op Out ρ) (a0 : Nat → α) :
    ∀ (sched : List ι) (P : ι → Prog Op Out ρ) {w : S} {a : Nat → α} (b : ι → Nat → α), R w a →
      (∀ i, (P i).Safe Pre Post (b i)) → (∀ i, (P i).Within rd wr own i) →
      (∀ i s, own s = some i ∨ own s = none → b i s = a s) →
      (∀ i r b', (P i).Allows Post (b i) r b' → (P0 i).Allows Post a0 r b') →
      Always (interleaveND step sched P w) fun q => ∃ a', ∃ b' : ι → Nat → α, R q.1 a' ∧
        (∀ i s, own s = some i ∨ own s = none → b' i s = a' s) ∧
        (∀ i r b'', (q.2 i).Allows Post (b' i) r b'' → (P0 i).Allows Post a0 r b'') := by
  intro sched
  induction sched with
  | nil => intro P w a b hR _ _ h3 h4; exact Always.pure ⟨a, b, hR, h3, h4⟩
  | cons i sched ih =>
    intro P w a b hR h1 h2 h3 h4
    rw [interleaveND]
    cases e : P i with
    | ret r => exact ih P b hR h1 h2 h3 h4
    | call op k =>
      have s1 := h1 i
      have s2 := h2 i
      rw [e] at s1 s2
      obtain ⟨own1, own2, s2⟩ := s2
      have hag : ∀ s, s ∈ rd op ∨ s ∈ wr op → a s = b i s := by
        rintro s (hs | hs)
        · exact (h3 i s (own2 s hs)).symm
        · exact (h3 i s (.inl (own1 s hs))).symm
      refine (hstep op hR (hloc.pre hag s1.1)).bind ?_
      rintro ⟨w', out⟩ ⟨a', k2, k3⟩
      obtain ⟨b', k4, k5, k6⟩ := hloc.post (fun s hs => (hag s hs).symm) k2
      refine ih _ (fun j => if j = i then b' else b j) k3 (fun j => ?_) (fun j => ?_) (fun j s hs => ?_) (fun j r b'' h => ?_)
      · by_cases hj : j = i
        · simp only [if_pos hj]; exact s1.2 _ _ k4
        · simp only [if_neg hj]; exact h1 j
      · by_cases hj : j = i
        · subst hj; simp only [if_true]; exact s2 out
        · simp only [if_neg hj]; exact h2 j
      · by_cases hw : s ∈ wr op
        · by_cases hj : j = i
          · simp only [if_pos hj]; exact k5 s hw
          · rcases hs with hs | hs
            · rw [own1 s hw] at hs; injection hs with hs; exact absurd hs.symm hj
            · rw [own1 s hw] at hs; cases hs
        · rw [hloc.frame k2 s hw]
          by_cases hj : j = i
          · subst hj; simp only [if_true]; rw [k6 s hw]; exact h3 _ s hs
          · simp only [if_neg hj]; exact h3 j s hs
      · by_cases hj : j = i
        · subst hj
          simp only [if_true] at h
          apply h4 j r b''
          rw [e]
          exact ⟨b', out, k4, h⟩
        · simp only [if_neg hj] at h; exact h4 j r b'' h

end Prog

namespace Dev
open ND Props
variable {V : Type} [DecidableEq V] {C : Cfg V} {dv : V} {ρ ι : Type} [DecidableEq ι]

theorem dev_local : Prog.Local gridReads gridWrites (fun a op => Spec.Pre C a op ∧ Limits op) (Post C dv) where
  pre hag h := ⟨grid_local (dv := dv).pre hag h.1, h.2⟩
  post {a b a' op out} hag h := by
    cases op with
    | broadcast s x y z c n =>
      exact grid_local.post (op := .broadcast s x y z c (min n 1)) hag h
    | get s x y z t =>
      obtain ⟨st, h1, h2⟩ := h
      obtain ⟨b', k1, k2, k3⟩ := grid_local.post (op := .get s x y z st) hag h2
      exact ⟨b', ⟨st, h1, k1⟩, k2, k3⟩
    | _ => exact grid_local.post hag h
  frame {a a' op out} h := by
    cases op with
    | broadcast s x y z c n =>
      exact (grid_local (C := C) (dv := dv)).frame (op := .broadcast s x y z c (min n 1)) h
    | get s x y z t =>
      obtain ⟨st, h1, h2⟩ := h
      exact (grid_local (C := C) (dv := dv)).frame (op := .get s x y z st) h2
    | _ => exact (grid_local (C := C) (dv := dv)).frame h

/-- C60 for threads of the host: each thread uses its own device grids, and queries those which no thread changes. Whatever turns the
    threads take, there is an outcome, no outcome is undefined behaviour, the result of each thread is one it may have if it runs
    alone, and its grids then have the dimensions and contents they have if it runs alone. Missing: as in `C60_history_partial`. -/
theorem C60_threads_partial (hL : C.L.WF) (htr : ∀ m ∈ C.L, m.ty.triv = true) (own : Nat → Option ι) (P : ι → Prog (Op V) (Out V) ρ)
    (hown : ∀ i, (P i).Within gridReads gridWrites own i)
    (hP : ∀ i, (P i).Safe (fun a op => Spec.Pre C a op ∧ Limits op) (Post C dv) Spec.start) (sched : List ι) :
    (∃ r, Prog.interleaveND (step C) sched P World.init r) ∧
    ∀ r, Prog.interleaveND (step C) sched P World.init r → ∃ D P', r = .ok (D, P') ∧
      ∀ i x, P' i = .ret x → ∃ b, (P i).Allows (Post C dv) Spec.start x b ∧
        ∀ s g, own s = some i → b s = .grid g → DimsAre C D.w s g.dim ∧
          ∀ x y z, InDim g.dim x y z → CellIs C D.w s x y z (g.cells x y z) := by
  have := Prog.interleaveND_refines (R := DR C) (own := own) (dev_local (C := C) (dv := dv))
    (fun op hR h => step_all hL htr dv hR op h.1 h.2) P Spec.start sched P (fun _ => Spec.start) (DR.init (C := C)) hP hown
    (fun _ _ _ => rfl) (fun _ _ _ h => h)
  refine ⟨this.1, fun r hr => ?_⟩
  obtain ⟨q, h1, a', b', h2, h3, h4⟩ := this.2 r hr
  refine ⟨q.1, q.2, h1, fun i x hx => ⟨b' i, h4 i x (b' i) (by rw [hx]; exact ⟨rfl, rfl⟩), fun s g hs hg => ?_⟩⟩
  rw [h3 i s (.inl hs)] at hg
  exact ⟨dims_of h2.host hg rfl, fun x y z hin => h2.host.cellIs hL hg hin⟩

theorem lastCell_within {own : Nat → Option ι} {i : ι} {s : Nat} (h : own s = some i) (d : Ext) (t : Cell V) :
    (lastCell s d t).Within gridReads gridWrites own i := by
  refine ⟨by simp [gridWrites, h], by simp [gridReads], fun out => ?_⟩
  cases out <;> first
    | trivial
    | (refine ⟨by simp [gridWrites], by simp [gridReads, h], fun out => ?_⟩
       cases out with
       | triple e =>
         simp only
         split
         · refine ⟨by simp [gridWrites, h], by simp [gridReads], fun out => ?_⟩
           cases out with
           | cells l =>
             cases l with
             | nil => trivial
             | cons c l => cases l <;> trivial
           | _ => trivial
         · trivial
       | _ => trivial)

/-- Any number of threads create a device grid each, of any size the device supports. -/
example (d : Nat → Ext) (hd : ∀ i, LaunchDims (d i)) (sched : List Nat) := C60_threads_partial demoL_WF demoL_triv (C := demoC) (dv := 0)
  some (fun i => lastCell i (d i) demoCell) (fun i => lastCell_within rfl (d i) demoCell)
  (fun i => Dev.lastCell_safe rfl (d i) (hd i) demoCell) sched

end Dev

namespace CA
open ND
variable {V : Type} {ρ ι : Type} [DecidableEq ι]

/-- Arrays which a call only reads from. -/
def reads : Op V → List Nat
  | .copy _ t => [t]
  | .assign _ t => [t]
  | .save s => [s]
  | _ => []

/-- Arrays which a call may change. -/
def writes : Op V → List Nat
  | .new s _ => [s]
  | .fill s _ _ => [s]
  | .copy s _ => [s]
  | .host s _ _ => [s]
  | .vec s _ => [s]
  | .assign s _ => [s]
  | .resize s _ => [s]
  | .resizeFill s _ _ => [s]
  | .reserve s _ => [s]
  | .load s _ => [s]
  | .save _ => []
  | .del s => [s]

theorem step_frame (a : AWorld V) (op : Op V) {s : Nat} (hs : s ∉ writes op) : (Spec.step a op).1 s = a s := by
  cases op <;> simp only [writes, List.mem_cons, List.not_mem_nil, or_false] at hs <;> simp only [Spec.step]
  case new => exact upd_ne _ _ hs
  case fill => exact upd_ne _ _ hs
  case host => exact upd_ne _ _ hs
  case vec => exact upd_ne _ _ hs
  case del => exact upd_ne _ _ hs
  all_goals split <;> first | exact upd_ne _ _ hs | rfl

theorem step_agree {a b : AWorld V} {op : Op V} (h : ∀ s, s ∈ reads op ∨ s ∈ writes op → b s = a s) :
    (Spec.step b op).2 = (Spec.step a op).2 ∧ ∀ s ∈ writes op, (Spec.step b op).1 s = (Spec.step a op).1 s := by
  cases op <;> simp only [reads, writes, List.mem_cons, List.not_mem_nil, or_false, false_or, forall_eq, forall_eq_or_imp] at h ⊢ <;>
    simp only [Spec.step]
  case new => exact ⟨trivial, by rw [upd_self, upd_self]⟩
  case fill => exact ⟨trivial, by rw [upd_self, upd_self]⟩
  case host => exact ⟨trivial, by rw [upd_self, upd_self]⟩
  case vec => exact ⟨trivial, by rw [upd_self, upd_self]⟩
  case del => exact ⟨trivial, by rw [upd_self, upd_self]⟩
  case copy s t => rw [h.1]; cases a t <;> simp [upd_self, h.2]
  case assign s t => rw [h.1, h.2]; cases hs : a s <;> cases a t <;> simp [upd_self, h.2, hs]
  case save s => rw [h]; cases a s <;> simp
  all_goals rw [h]; cases hs : a _ <;> simp [upd_self, h, hs]

theorem ca_local : Prog.Local (reads (V := V)) writes Spec.Pre Post where
  pre {a b op} h hp := by
    cases op <;> simp only [reads, writes, List.mem_cons, List.not_mem_nil, or_false, false_or, forall_eq, forall_eq_or_imp] at h <;>
      simpa [Spec.Pre, h] using hp
  post {a b a' op out} h hp := by
    obtain ⟨rfl, hp⟩ := hp
    obtain ⟨h1, h2⟩ := step_agree h
    exact ⟨_, ⟨rfl, by rw [h1]; exact hp⟩, h2, fun s hs => step_frame b op hs⟩
  frame {a a' op out} hp := by
    obtain ⟨rfl, -⟩ := hp
    exact fun s hs => step_frame a op hs

/-- C41 for threads of the host: each thread uses its own arrays, and copies or saves those which no thread changes. Whatever turns the
    threads take, there is an outcome, no outcome is undefined behaviour, the result of each thread is one it may have if it runs
    alone, and its arrays then have the capacities, sizes and contents they have if it runs alone. Missing: as in `C41_partial`. -/
theorem C41_threads_partial (own : Nat → Option ι) (P : ι → Prog (Op V) (List (Option V)) ρ) (hown : ∀ i, (P i).Within reads writes own i)
    (hP : ∀ i, (P i).Safe Spec.Pre Post (fun _ => none)) (sched : List ι) :
    (∃ r, Prog.interleaveND Dev.call sched P World.init r) ∧
    ∀ r, Prog.interleaveND Dev.call sched P World.init r → ∃ w P', r = .ok (w, P') ∧
      ∀ i x, P' i = .ret x → ∃ b, (P i).Allows Post (fun _ => none) x b ∧
        ∀ s c l, own s = some i → b s = some (c, l) → ∃ o m, w.arr s = some o ∧ o.cap = c ∧ o.size = l.length ∧
          w.heap o.ptr = some m ∧ Agrees (m.take l.length) l := by
  have := Prog.interleaveND_refines (R := fun w a => Rel w a ∧ Dev.Bounded a) (own := own) (ca_local (V := V))
    (fun op hR h => call_always (op := op) hR.1 hR.2 h) P (fun _ => none) sched P (w := World.init) (fun _ _ => none)
    ⟨Rel.init, ⟨0, fun _ _ => rfl⟩⟩ hP hown (fun _ _ _ => rfl) (fun _ _ _ h => h)
  refine ⟨this.1, fun r hr => ?_⟩
  obtain ⟨q, h1, a', b', ⟨h2, -⟩, h3, h4⟩ := this.2 r hr
  refine ⟨q.1, q.2, h1, fun i x hx => ⟨b' i, h4 i x (b' i) (by rw [hx]; exact ⟨rfl, rfl⟩), fun s c l hs hb => ?_⟩⟩
  rw [h3 i s (.inl hs)] at hb
  cases ho : q.1.arr s with
  | none => rw [(h2.hnone s).1 ho] at hb; cases hb
  | some o =>
    obtain ⟨k1, k2, -, m, k4, -, k6⟩ := h2.hsome s o c l ho hb
    exact ⟨o, m, rfl, k1, k2, k4, by rw [← k2]; exact k6⟩

/-- `grow` for the array `s`. -/
def growAt [DecidableEq V] (s : Nat) (l : List V) (v w : V) : Prog (Op V) (List (Option V)) (List (Option V)) :=
  .call (.vec s l) fun _ => .call (.save s) fun out =>
    if out.head? = some (some v) then .call (.resizeFill s (2 * out.length) w) fun _ => .call (.save s) fun out' => .ret out'
    else .ret out

/-- Any number of threads with an array each. -/
example (l : Nat → List Int) (hl : ∀ i, l i ≠ []) (sched : List Nat) := C41_threads_partial some (fun i => growAt i (l i) 3 7)
  (fun i => by
    refine ⟨by simp [writes], by simp [reads], fun out => ⟨by simp [writes], by simp [reads], fun out => ?_⟩⟩
    simp only
    split
    · exact ⟨by simp [writes], by simp [reads], fun out => ⟨by simp [writes], by simp [reads], fun out => trivial⟩⟩
    · trivial)
  (fun i => by
    refine ⟨⟨rfl, hl i⟩, ?_⟩
    rintro a1 out1 ⟨rfl, -⟩
    refine ⟨⟨((l i).length, (l i).map some), by simp [Spec.step, upd_self]⟩, ?_⟩
    rintro a2 out2 ⟨rfl, -⟩
    simp only
    have e : (Spec.step (Spec.step (fun _ => none) (Op.vec i (l i))).1 (Op.save i)).1 i = some ((l i).length, (l i).map some) := by
      simp [Spec.step, upd_self]
    split
    · refine ⟨⟨_, e⟩, ?_⟩
      rintro a3 out3 ⟨rfl, -⟩
      refine ⟨?_, fun _ _ _ => trivial⟩
      simp only [Spec.step, upd_self]
      exact ⟨_, upd_self _ _ _⟩
    · trivial) sched

end CA
end LFA
