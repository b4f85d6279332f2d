import Verif.Grid

/-
  Programs which choose their next call by what the previous ones returned. The other histories of this project are lists of calls fixed
  in advance; here a program is a tree, so loops over `size()`, searches and branches on elements that have been read are covered.
-/
namespace LFA

/-- A client program over calls `Op` which return `Out`: it ends with a result, or does a call and goes on depending on what the call
    returned. Models any terminating client code that calls the member functions of soa_array.hpp:30-312, soa_vector.hpp:20-200 or
    soa_grid.hpp:90-505 one after the other. Not modelled: clients that do not terminate. -/
inductive Prog (Op Out ρ : Type) where
  | ret (r : ρ)
  | call (op : Op) (k : Out → Prog Op Out ρ)

namespace Prog
variable {Op Out ρ S A : Type}

/-- Runs a program; undefined behaviour of a call is undefined behaviour of the program. -/
def exec (step : S → Op → Except UB (S × Out)) : Prog Op Out ρ → S → Except UB (S × ρ)
  | .ret r, s => .ok (s, r)
  | .call op k, s =>
    match step s op with
    | .error u => .error u
    | .ok (s', out) => exec step (k out) s'

/-- The program respects all contracts, whatever the specification lets happen. -/
def Safe (Pre : A → Op → Prop) (Post : A → Op → A → Out → Prop) : Prog Op Out ρ → A → Prop
  | .ret _, _ => True
  | .call op k, a => Pre a op ∧ ∀ a' out, Post a op a' out → Safe Pre Post (k out) a'

/-- According to the specification, the program may end in the state `a'` with the result `r`. -/
def Allows (Post : A → Op → A → Out → Prop) : Prog Op Out ρ → A → ρ → A → Prop
  | .ret r', a, r, a' => r = r' ∧ a' = a
  | .call op k, a, r, a' => ∃ a1 out, Post a op a1 out ∧ Allows Post (k out) a1 r a'

/-- Sequencing. -/
def bind {ρ' : Type} : Prog Op Out ρ → (ρ → Prog Op Out ρ') → Prog Op Out ρ'
  | .ret r, f => f r
  | .call op k, f => .call op fun out => bind (k out) f

/-- `for (i = b; i < b + n; ++i) s = body(i, s)`. -/
def loop {σ : Type} (body : Nat → σ → Prog Op Out σ) : Nat → Nat → σ → Prog Op Out σ
  | 0, _, s => .ret s
  | n + 1, b, s => bind (body b s) (loop body n (b + 1))

theorem exec_bind {ρ' : Type} (step : S → Op → Except UB (S × Out)) (f : ρ → Prog Op Out ρ') :
    ∀ (p : Prog Op Out ρ) {s s' : S} {r : ρ}, p.exec step s = .ok (s', r) → (p.bind f).exec step s = (f r).exec step s'
  | .ret r', s, s', r, h => by cases h; rfl
  | .call op k, s, s', r, h => by
    rw [exec] at h
    rw [bind, exec]
    cases e : step s op with
    | error u => rw [e] at h; cases h
    | ok q => rw [e] at h; exact exec_bind step f (k q.2) h

/-- A simulation of single calls is one of programs. -/
theorem exec_refines {step : S → Op → Except UB (S × Out)} {Pre : A → Op → Prop} {Post : A → Op → A → Out → Prop} {R : S → A → Prop}
    (hstep : ∀ {w a} op, R w a → Pre a op → ∃ w' out a', step w op = .ok (w', out) ∧ Post a op a' out ∧ R w' a') :
    ∀ (p : Prog Op Out ρ) {w : S} {a : A}, R w a → p.Safe Pre Post a →
      ∃ w' r a', p.exec step w = .ok (w', r) ∧ p.Allows Post a r a' ∧ R w' a'
  | .ret r, w, a, hR, _ => ⟨w, r, a, rfl, ⟨rfl, rfl⟩, hR⟩
  | .call op k, w, a, hR, h => by
    obtain ⟨w1, out, a1, h1, h2, h3⟩ := hstep op hR h.1
    obtain ⟨w', r, a', k1, k2, k3⟩ := exec_refines hstep (k out) h3 (h.2 a1 out h2)
    exact ⟨w', r, a', by rw [exec, h1]; exact k1, ⟨a1, out, h2, k2⟩, k3⟩

/-! ### Several clients at the same time -/

/-- Threads which run one client each, and take turns as `sched` says; a turn of a thread which has finished does nothing. Calls are
    atomic here. This is adequate for threads which access different containers, or only read from those they share, as such calls
    access different memory (C01, C08, C23) or read only; the memory accesses of threads which share elements of a container are the
    subject of `Threads.lean` and `Share.lean`. The model of client code as in `Prog`; std::thread and OpenMP sections around
    soa_grid.hpp:90-505, soa_array.hpp:30-312 and soa_vector.hpp:20-200, which have no variables of static storage duration. -/
def interleave {ι : Type} [DecidableEq ι] (step : S → Op → Except UB (S × Out)) :
    List ι → (ι → Prog Op Out ρ) → S → Except UB (S × (ι → Prog Op Out ρ))
  | [], P, s => .ok (s, P)
  | i :: sched, P, s =>
    match P i with
    | .ret _ => interleave step sched P s
    | .call op k =>
      match step s op with
      | .error u => .error u
      | .ok (s', out) => interleave step sched (fun j => if j = i then k out else P j) s'

/-- Client `i` changes its own containers only, and reads only these and shared ones (without owner). -/
def Within {ι : Type} (rd wr : Op → List Nat) (own : Nat → Option ι) (i : ι) : Prog Op Out ρ → Prop
  | .ret _ => True
  | .call op k => (∀ s ∈ wr op, own s = some i) ∧ (∀ s ∈ rd op, own s = some i ∨ own s = none) ∧ ∀ out, Within rd wr own i (k out)

/-- Calls depend on the containers which they read or change, and affect the latter only. -/
structure Local {α : Type} (rd wr : Op → List Nat) (Pre : (Nat → α) → Op → Prop) (Post : (Nat → α) → Op → (Nat → α) → Out → Prop) : Prop where
  pre : ∀ {a b op}, (∀ s, s ∈ rd op ∨ s ∈ wr op → b s = a s) → Pre a op → Pre b op
  post : ∀ {a b a' op out}, (∀ s, s ∈ rd op ∨ s ∈ wr op → b s = a s) → Post a op a' out →
    ∃ b', Post b op b' out ∧ (∀ s ∈ wr op, b' s = a' s) ∧ ∀ s, s ∉ wr op → b' s = b s
  frame : ∀ {a a' op out}, Post a op a' out → ∀ s, s ∉ wr op → a' s = a s

theorem interleave_refines {ι α : Type} [DecidableEq ι] {rd wr : Op → List Nat} {own : Nat → Option ι}
    {step : S → Op → Except UB (S × Out)} {Pre : (Nat → α) → Op → Prop} {Post : (Nat → α) → Op → (Nat → α) → Out → Prop}
    {R : S → (Nat → α) → Prop} (hloc : Local rd wr Pre Post)
    (hstep : ∀ {w a} op, R w a → Pre a op → ∃ w' out a', step w op = .ok (w', out) ∧ Post a op a' out ∧ R w' a')
    (P0 : ι → Prog Op Out ρ) (a0 : Nat → α) :
    ∀ (sched : List ι) (P : ι → Prog Op Out ρ) {w : S} {a : Nat → α} (b : ι → Nat → α), R w a →
      (∀ i, (P i).Safe Pre Post (b i)) → (∀ i, (P i).Within rd wr own i) →
      (∀ i s, own s = some i ∨ own s = none → b i s = a s) →
      (∀ i r b', (P i).Allows Post (b i) r b' → (P0 i).Allows Post a0 r b') →
      ∃ w' P' a', ∃ b' : ι → Nat → α, interleave step sched P w = .ok (w', P') ∧ R w' a' ∧
        (∀ i s, own s = some i ∨ own s = none → b' i s = a' s) ∧
        (∀ i r b'', (P' i).Allows Post (b' i) r b'' → (P0 i).Allows Post a0 r b'') := by
  intro sched
  induction sched with
  | nil => intro P w a b hR _ _ h3 h4; exact ⟨w, P, a, b, rfl, hR, h3, h4⟩
  | cons i sched ih =>
    intro P w a b hR h1 h2 h3 h4
    rw [interleave]
    cases e : P i with
    | ret r => exact ih P b hR h1 h2 h3 h4
    | call op k =>
      have s1 := h1 i
      have s2 := h2 i
      rw [e] at s1 s2
      obtain ⟨own1, own2, s2⟩ := s2
      have hag : ∀ s, s ∈ rd op ∨ s ∈ wr op → a s = b i s := by
        rintro s (hs | hs)
        · exact (h3 i s (own2 s hs)).symm
        · exact (h3 i s (.inl (own1 s hs))).symm
      obtain ⟨w', out, a', k1, k2, k3⟩ := hstep op hR (hloc.pre hag s1.1)
      obtain ⟨b', k4, k5, k6⟩ := hloc.post (fun s hs => (hag s hs).symm) k2
      simp only [k1]
      refine ih _ (fun j => if j = i then b' else b j) k3 (fun j => ?_) (fun j => ?_) (fun j s hs => ?_) (fun j r b'' h => ?_)
      · by_cases hj : j = i
        · simp only [if_pos hj]; exact s1.2 _ _ k4
        · simp only [if_neg hj]; exact h1 j
      · by_cases hj : j = i
        · subst hj; simp only [if_true]; exact s2 out
        · simp only [if_neg hj]; exact h2 j
      · by_cases hw : s ∈ wr op
        · by_cases hj : j = i
          · simp only [if_pos hj]; exact k5 s hw
          · rcases hs with hs | hs
            · rw [own1 s hw] at hs; injection hs with hs; exact absurd hs.symm hj
            · rw [own1 s hw] at hs; cases hs
        · rw [hloc.frame k2 s hw]
          by_cases hj : j = i
          · subst hj; simp only [if_true]; rw [k6 s hw]; exact h3 _ s hs
          · simp only [if_neg hj]; exact h3 j s hs
      · by_cases hj : j = i
        · subst hj
          simp only [if_true] at h
          apply h4 j r b''
          rw [e]
          exact ⟨b', out, k4, h⟩
        · simp only [if_neg hj] at h; exact h4 j r b'' h

theorem interleave_append {ι : Type} [DecidableEq ι] {step : S → Op → Except UB (S × Out)} :
    ∀ (s1 s2 : List ι) {P P' : ι → Prog Op Out ρ} {w w' : S}, interleave step s1 P w = .ok (w', P') →
      interleave step (s1 ++ s2) P w = interleave step s2 P' w'
  | [], s2, P, P', w, w', h => by cases h; rfl
  | i :: s1, s2, P, P', w, w', h => by
    rw [List.cons_append, interleave]
    rw [interleave] at h
    cases e : P i with
    | ret r => rw [e] at h; exact interleave_append s1 s2 h
    | call op k =>
      rw [e] at h
      simp only at h ⊢
      cases e2 : step w op with
      | error u => rw [e2] at h; cases h
      | ok q => rw [e2] at h; exact interleave_append s1 s2 h

/-- If no turns lead to undefined behaviour, one thread can always finish, and those which have finished stay so. -/
theorem one_can_finish {ι : Type} [DecidableEq ι] {step : S → Op → Except UB (S × Out)} (i : ι) :
    ∀ (p : Prog Op Out ρ) {P : ι → Prog Op Out ρ} {w : S}, P i = p → (∀ sched, ∃ x, interleave step sched P w = .ok x) →
      ∃ n w' P', interleave step (List.replicate n i) P w = .ok (w', P') ∧ (∃ r, P' i = .ret r) ∧ ∀ j, j ≠ i → P' j = P j
  | .ret r, P, w, e, _ => ⟨0, w, P, rfl, ⟨r, e⟩, fun _ _ => rfl⟩
  | .call op k, P, w, e, H => by
    obtain ⟨x, hx⟩ := H [i]
    rw [interleave, e] at hx
    simp only at hx
    cases e2 : step w op with
    | error u => rw [e2] at hx; cases hx
    | ok q =>
      obtain ⟨n, w', P', h1, h2, h3⟩ := one_can_finish i (k q.2) (P := fun j => if j = i then k q.2 else P j) (w := q.1) (by simp)
        (fun sched => by
          obtain ⟨y, hy⟩ := H (i :: sched)
          rw [interleave, e] at hy
          simp only [e2] at hy
          exact ⟨y, hy⟩)
      refine ⟨n + 1, w', P', ?_, h2, fun j hj => ?_⟩
      · rw [List.replicate_succ, interleave, e]
        simp only [e2]
        exact h1
      · rw [h3 j hj, if_neg hj]

theorem all_can_finish {ι : Type} [DecidableEq ι] {step : S → Op → Except UB (S × Out)} :
    ∀ (is : List ι) {P : ι → Prog Op Out ρ} {w : S}, (∀ sched, ∃ x, interleave step sched P w = .ok x) →
      ∃ sched w' P', interleave step sched P w = .ok (w', P') ∧ ∀ i, (i ∈ is ∨ ∃ r, P i = .ret r) → ∃ r, P' i = .ret r
  | [], P, w, _ => ⟨[], w, P, rfl, fun i h => h.elim (fun h => absurd h (List.not_mem_nil)) id⟩
  | i :: is, P, w, H => by
    obtain ⟨n, w1, P1, h1, h2, h3⟩ := one_can_finish i (P i) rfl H
    obtain ⟨sched, w', P', k1, k2⟩ := all_can_finish is (P := P1) (w := w1) (fun sched => by
      obtain ⟨y, hy⟩ := H (List.replicate n i ++ sched)
      rw [interleave_append _ _ h1] at hy
      exact ⟨y, hy⟩)
    refine ⟨List.replicate n i ++ sched, w', P', by rw [interleave_append _ _ h1]; exact k1, fun j hj => ?_⟩
    by_cases hji : j = i
    · subst hji; exact k2 j (.inr h2)
    · refine k2 j (hj.imp (fun h => ?_) (fun h => by rw [h3 j hji]; exact h))
      exact (List.mem_cons.1 h).resolve_left hji

end Prog
end LFA
