import Verif.MachCudaArr
import Verif.Props.CudaArray

/-
  Properties of cuda_array in 64-bit arithmetic (C82).
-/
namespace LFA
open CA
variable {V : Type}

/-- C82: each legal program which asks for less than 2^64 bytes at a time behaves as one with vectors which have a capacity, and as if
    sizes were unbounded. Missing: requests which wrap around (C82_false), and what is missing in C41. -/
theorem C82_partial (sz : Nat) (hsz : 0 < sz) (prog : List (Op V × Ans)) (hl : Spec.Legal (fun _ => none) (prog.map Prod.fst))
    (ha : MAnsRun sz World.init prog) (hr : ∀ q ∈ prog, q.1.request * sz < 2 ^ 64) :
    ∃ w outs, mrun sz World.init prog = .ok (w, outs) ∧ run World.init prog = .ok (w, outs) ∧
      List.Forall₂ Agrees outs (Spec.run (fun _ => none) (prog.map Prod.fst)).2 ∧
      (∀ s, (w.arr s).map (fun x => (x.cap, x.size)) =
        ((Spec.run (fun _ => none) (prog.map Prod.fst)).1 s).map fun q => (q.1, q.2.length)) ∧
      (∀ s s' x x', w.arr s = some x → w.arr s' = some x' → x.ptr = x'.ptr → s = s') ∧
      (∀ p, w.heap p ≠ none ↔ ∃ s x, w.arr s = some x ∧ x.ptr = p) := by
  obtain ⟨w, outs, h, rest⟩ := C41_partial prog hl (ansRun_small hsz prog small_init hr ha)
  exact ⟨w, outs, by rw [mrun_small hsz prog small_init hr]; exact h, h, rest⟩

theorem caProg_request : ∀ q ∈ caProg, q.1.request * 8 < 2 ^ 64 := by decide

theorem caProg_mans : MAnsRun 8 World.init caProg := by
  refine ⟨caProg_ans.1, fun w out h => ?_⟩
  rw [mstep_small (by decide) small_init (by decide)] at h
  cases h
  refine ⟨⟨⟨2, rfl, rfl⟩, trivial⟩, fun w out h => ?_⟩
  cases h
  refine ⟨⟨⟨3, rfl, rfl⟩, trivial⟩, fun w out h => ?_⟩
  cases h
  refine ⟨⟨⟨4, rfl, rfl⟩, trivial⟩, fun w out h => ?_⟩
  cases h
  refine ⟨⟨⟨1, rfl, rfl⟩, trivial⟩, fun w out h => ?_⟩
  cases h
  refine ⟨⟨⟨1, rfl, rfl⟩, trivial⟩, fun w out h => ?_⟩
  cases h
  exact ⟨⟨⟨1, rfl, rfl⟩, trivial⟩, fun w out h => trivial⟩

example : ∃ w outs, mrun 8 World.init caProg = .ok (w, outs) ∧
    List.Forall₂ Agrees outs [[], [], [], [], [some 7, some 7, some 7, some 8, some 8], [], []] := by
  obtain ⟨w, outs, h1, _, h2, _⟩ := C82_partial 8 (by decide) caProg caProg_legal caProg_mans caProg_request
  exact ⟨w, outs, h1, h2⟩

/-- Fewer elements than requested fit if the number of bytes wraps around. -/
theorem byteSize_lt {sz n : Nat} (hsz : 0 < sz) (hs : sz ≤ 2 ^ 64) (h : 2 ^ 64 ≤ n * sz) : byteSize sz n / sz + 1 ≤ n ∧
    (byteSize sz n % sz ≠ 0 → byteSize sz n / sz + 1 < n) := by
  have hb : byteSize sz n + 2 ^ 64 ≤ n * sz := by
    have := Nat.div_add_mod (n * sz) (2 ^ 64)
    have h1 : 1 ≤ n * sz / 2 ^ 64 := Nat.div_pos h (by decide)
    have : 2 ^ 64 * 1 ≤ 2 ^ 64 * (n * sz / 2 ^ 64) := Nat.mul_le_mul_left _ h1
    unfold byteSize; omega
  have hd := Nat.div_add_mod (byteSize sz n) sz
  generalize byteSize sz n = b at *
  have hm := Nat.mod_lt b hsz
  constructor
  · refine Nat.not_lt.1 fun hc => ?_
    have : n * sz ≤ (b / sz) * sz := Nat.mul_le_mul_right _ (by omega)
    rw [Nat.mul_comm (b / sz)] at this
    omega
  · intro hne
    refine Nat.not_le.1 fun hc => ?_
    have : n * sz ≤ (b / sz + 1) * sz := Nat.mul_le_mul_right _ (by omega)
    rw [Nat.add_mul, Nat.mul_comm (b / sz)] at this
    omega

/-- C82 is false if the number of bytes wraps around: an array is constructed which claims to have `n` elements, but `save` yields
    fewer. This holds for each element size and each such `n`. -/
theorem C82_false (sz n p : Nat) (hsz : 0 < sz) (hs : sz ≤ 2 ^ 64) (h : 2 ^ 64 ≤ n * sz) :
    ∃ (w : World V) (l : List (Option V)), mstep sz World.init (.new 0 n) ⟨some p, []⟩ = .ok (w, []) ∧
      (w.arr 0).map (fun x => x.size) = some n ∧ mstep sz w (.save 0) ⟨none, []⟩ = .ok (w, l) ∧ l.length < n := by
  obtain ⟨h1, h2⟩ := byteSize_lt hsz hs h
  refine ⟨⟨upd (fun _ => none) 0 (some ⟨n, n, p⟩), upd (fun _ => none) p (some (List.replicate (byteSize sz n / sz) none))⟩,
    (if byteSize sz n % sz = 0 then List.replicate (byteSize sz n / sz) none else List.replicate (byteSize sz n / sz) none ++ [none]),
    rfl, rfl, ?_, ?_⟩
  · simp only [mstep, upd_self, mfromDevice]
    rw [fromDevice_ok (upd_self _ _ _) (by simp)]
    simp [Except.bind, Except.map]
  · split
    · simp only [List.length_replicate]; omega
    · rename_i hne
      simp only [List.length_append, List.length_replicate, List.length_cons, List.length_nil]
      exact h2 hne

example : (2 : Nat) ^ 64 ≤ 2 ^ 61 * 8 := by decide

/-- The first iteration fails. -/
theorem loopM_first {σ : Type} {f : Nat → σ → Except UB σ} {s : σ} {u : UB} (h : f 0 s = .error u) : ∀ n, loopM (n + 1) f s = .error u
  | 0 => by rw [loopM_succ, loopM_zero]; exact h
  | n + 1 => by rw [loopM_succ, loopM_first h n]; rfl

/-- C82 is false for filled elements, too: they are written behind the memory (for each element size and each number of elements for
    which not even the first one fits). -/
theorem C82_false_fill (sz n : Nat) (v : V) (p p' : Nat) (hp : p' ≠ p) (hn : 0 < n) (h : n * sz % 2 ^ 64 < sz) :
    mrun sz World.init [(.new 0 0, ⟨some p, []⟩), (.resizeFill 0 n v, ⟨some p', []⟩)] = .error .oob := by
  have e : byteSize sz n / sz = 0 := Nat.div_eq_of_lt h
  obtain ⟨k, rfl⟩ : ∃ k, n = k + 1 := ⟨n - 1, by omega⟩
  have hb : byteSize sz 0 = 0 := by simp [byteSize]
  have hs : mstep sz World.init (.new 0 0) ⟨some p, []⟩ =
      .ok ((⟨upd (fun _ => none) 0 (some ⟨0, 0, p⟩), upd (fun _ => none) p (some [])⟩ : World V), []) := by
    simp only [mstep, mallocate, hb, Nat.zero_div]; rfl
  have hs' : mstep sz (⟨upd (fun _ => none) 0 (some ⟨0, 0, p⟩), upd (fun _ => none) p (some [])⟩ : World V) (.resizeFill 0 (k + 1) v)
      ⟨some p', []⟩ = .error .oob := by
    simp only [mstep, upd_self, mresizeImpl]
    rw [if_neg (by omega), mallocate, e]
    simp only [allocate, Except.bind, List.replicate_zero]
    rw [hb]
    have hd : mdevToDev sz (upd (upd (fun _ => none) p (some [])) p' (some []) : Heap V) p' p 0 =
      .ok (upd (upd (fun _ => none) p (some [])) p' (some [])) := by
      simp [mdevToDev, mtoDevice, fromDevice, toDevice, Except.bind]
    rw [hd]
    simp only [deallocate]
    rw [upd_ne _ _ (Ne.symm hp), upd_self]
    simp only [fillFrom]
    rw [Nat.sub_zero, loopM_first (u := .oob)]
    rw [toDevice, if_neg (by decide), upd_ne _ _ hp, upd_self]
    rfl
  rw [mrun, hs]
  simp only [Except.bind]
  rw [mrun, hs']
  rfl

example (v : V) : mrun 8 World.init [(.new 0 0, ⟨some 1, []⟩), (.resizeFill 0 (2 ^ 61) v, ⟨some 2, []⟩)] = .error .oob :=
  C82_false_fill 8 (2 ^ 61) v 1 2 (by decide) (by decide) (by decide)

end LFA
