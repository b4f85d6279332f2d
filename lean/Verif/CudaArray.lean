import Verif.CudaProof

/-
  cuda_array and cuda_allocator (cuda_array.hpp, cuda_allocator.hpp, detail/init_kernel.hpp), over a model of the device heap.

  Simplifications: `n * sizeof(ELEMENT_TYPE)` does not overflow, elements are trivially copyable (the class copies raw bytes), and
  copying an element range onto itself is harmless.
-/
set_option linter.unusedSectionVars false
namespace LFA.CA
variable {V : Type}

/-- A `cuda_array` object (cuda_array.hpp:176-178). -/
structure Arr where
  size : Nat
  cap : Nat
  ptr : Nat
deriving DecidableEq

/-- Device memory: live chunks with their elements, `none` is an element which has not been written to. -/
abbrev Heap (V : Type) := Nat → Option (List (Option V))

/-- Named arrays and the device heap. -/
structure World (V : Type) where
  arr : Nat → Option Arr
  heap : Heap V

/-- Nothing exists. -/
def World.init : World V := ⟨fun _ => none, fun _ => none⟩

/-- Function update. -/
def upd {α : Type} (f : Nat → α) (i : Nat) (a : α) : Nat → α := fun j => if j = i then a else f j

/-- What the environment decides on: the address `cudaMalloc` returns (`none`: out of memory), and the order in which the threads of
    `init_kernel` write. -/
structure Ans where
  ptr : Option Nat
  sched : List Nat

/-- `cuda_allocator::allocate` (cuda_allocator.hpp:49-54): the result of `cudaMalloc` is not checked, `ret` is indeterminate if it
    fails. -/
def allocate (h : Heap V) (n : Nat) (ans : Ans) : Except UB (Nat × Heap V) :=
  match ans.ptr with
  | none => .error .indet
  | some p => .ok (p, upd h p (some (List.replicate n none)))

/-- `cuda_allocator::deallocate` (cuda_allocator.hpp:56-59). -/
def deallocate (h : Heap V) (p : Nat) : Except UB (Heap V) :=
  match h p with
  | none => .error .lifetime
  | some _ => .ok (upd h p none)

/-- `cudaMemcpy` to device memory: `n` elements, to index `off`. -/
def toDevice (h : Heap V) (dst off : Nat) (src : List (Option V)) (n : Nat) : Except UB (Heap V) :=
  if n = 0 then .ok h
  else match h dst with
    | none => .error .lifetime
    | some l => if off + n ≤ l.length ∧ n ≤ src.length then .ok (upd h dst (some (l.take off ++ src.take n ++ l.drop (off + n))))
      else .error .oob

/-- `cudaMemcpy` from device memory: `n` elements. -/
def fromDevice (h : Heap V) (src n : Nat) : Except UB (List (Option V)) :=
  if n = 0 then .ok []
  else match h src with
    | none => .error .lifetime
    | some l => if n ≤ l.length then .ok (l.take n) else .error .oob

/-- `cudaMemcpy(…, cudaMemcpyDeviceToDevice)`. -/
def devToDev (h : Heap V) (dst src n : Nat) : Except UB (Heap V) :=
  (fromDevice h src n).bind fun l => toDevice h dst 0 l n

/-- `init_kernel` (detail/init_kernel.hpp:22-32): the indices a thread writes to. -/
def initKernel (count : Nat) (bd : Dim3) (t : Thread) : List Nat := if tidX bd t ≥ count then [] else [tidX bd t]

/-- Execution of `target[thread_index] = source`. -/
def initExec (v : V) (p : Nat) (i : Nat) (h : Heap V) : Except UB (Heap V) := toDevice h p i [some v] 1

/-- All threads of `init_kernel`, for the launch in the constructor (cuda_array.hpp:67-70). -/
def initThreads (n : Nat) : List (List Nat) :=
  (threads (launchConfig (toInt32 n) 1 1).1 (launchConfig (toInt32 n) 1 1).2).map (initKernel n (launchConfig (toInt32 n) 1 1).2)

/-- `cudaMemcpy(p + i, defaultElement, …)` for `i` in `[from, to)` (cuda_array.hpp:185-191, 202-208). -/
def fillFrom (h : Heap V) (p lo hi : Nat) (v : V) : Except UB (Heap V) :=
  loopM (hi - lo) (fun i h => toDevice h p (lo + i) [some v] 1) h

/-- `resize_implementation` (cuda_array.hpp:180-215). -/
def resizeImpl (h : Heap V) (a : Arr) (newSize : Nat) (defaultElement : Option V) (ans : Ans) : Except UB (Arr × Heap V) :=
  if newSize ≤ a.cap then
    (match defaultElement with
      | some v => fillFrom h a.ptr a.size newSize v
      | none => .ok h).bind fun h => .ok ({ a with size := newSize }, h)
  else
    (allocate h newSize ans).bind fun q =>
    (devToDev q.2 q.1 a.ptr a.size).bind fun h =>
    (deallocate h a.ptr).bind fun h =>
    (match defaultElement with
      | some v => fillFrom h q.1 a.size newSize v
      | none => .ok h).bind fun h =>
    .ok (⟨newSize, newSize, q.1⟩, h)

/-- `reserve` (cuda_array.hpp:135-147). -/
def reserveImpl (h : Heap V) (a : Arr) (newCap : Nat) (ans : Ans) : Except UB (Arr × Heap V) :=
  if newCap ≤ a.cap then .ok (a, h)
  else
    (allocate h newCap ans).bind fun q =>
    (devToDev q.2 q.1 a.ptr a.size).bind fun h =>
    (deallocate h a.ptr).bind fun h =>
    .ok ({ a with ptr := q.1, cap := newCap }, h)

/-- `operator=` (cuda_array.hpp:102-113). -/
def assignImpl (h : Heap V) (a o : Arr) (self : Bool) (ans : Ans) : Except UB (Arr × Heap V) :=
  (if o.size > a.cap then
    (deallocate h a.ptr).bind fun h => (allocate h o.size ans).bind fun q => .ok (({ a with ptr := q.1, cap := o.size } : Arr), q.2)
  else .ok (a, h)).bind fun q =>
  let a : Arr := { q.1 with size := o.size }
  (devToDev q.2 a.ptr (if self then a.ptr else o.ptr) a.size).bind fun h => .ok (a, h)

/-- Operations of a program. -/
inductive Op (V : Type) where
  /-- `cuda_array s(n)` -/
  | new (s n : Nat)
  /-- `cuda_array s(n, v)` -/
  | fill (s n : Nat) (v : V)
  /-- `cuda_array s(t)` -/
  | copy (s t : Nat)
  /-- `cuda_array s(l, n)`, where `l` points to at least `n` elements -/
  | host (s : Nat) (l : List V) (n : Nat)
  /-- `cuda_array s(l)` for a `std::vector` -/
  | vec (s : Nat) (l : List V)
  /-- `s = t` -/
  | assign (s t : Nat)
  /-- `s.resize(n)` -/
  | resize (s n : Nat)
  /-- `s.resize(n, v)` -/
  | resizeFill (s n : Nat) (v : V)
  /-- `s.reserve(n)` -/
  | reserve (s n : Nat)
  /-- `s.load(l)` -/
  | load (s : Nat) (l : List V)
  /-- `s.save(…)` -/
  | save (s : Nat)
  /-- end of the lifetime -/
  | del (s : Nat)

/-- An operation; the result includes the elements copied to the host. -/
def step (w : World V) (op : Op V) (ans : Ans) : Except UB (World V × List (Option V)) :=
  match op with
  -- cuda_array.hpp:56-60
  | .new s n => (allocate w.heap n ans).bind fun q => .ok (⟨upd w.arr s (some ⟨n, n, q.1⟩), q.2⟩, [])
  -- cuda_array.hpp:62-71
  | .fill s n v => (allocate w.heap n ans).bind fun q =>
      (runL (initExec v q.1) ans.sched q.2).bind fun h => .ok (⟨upd w.arr s (some ⟨n, n, q.1⟩), h⟩, [])
  -- cuda_array.hpp:73-79
  | .copy s t => match w.arr t with
    | none => .error .lifetime
    | some o => (allocate w.heap o.size ans).bind fun q =>
        (devToDev q.2 q.1 o.ptr o.size).bind fun h => .ok (⟨upd w.arr s (some ⟨o.size, o.size, q.1⟩), h⟩, [])
  -- cuda_array.hpp:81-87
  | .host s l n => (allocate w.heap n ans).bind fun q =>
      (toDevice q.2 q.1 0 (l.map some) n).bind fun h => .ok (⟨upd w.arr s (some ⟨n, n, q.1⟩), h⟩, [])
  -- cuda_array.hpp:89-95: front() must not be called for empty vectors
  | .vec s l => (allocate w.heap l.length ans).bind fun q =>
      if l = [] then .error .oob
      else (toDevice q.2 q.1 0 (l.map some) l.length).bind fun h => .ok (⟨upd w.arr s (some ⟨l.length, l.length, q.1⟩), h⟩, [])
  | .assign s t => match w.arr s, w.arr t with
    | some a, some o => (assignImpl w.heap a o (s == t) ans).bind fun q => .ok (⟨upd w.arr s (some q.1), q.2⟩, [])
    | _, _ => .error .lifetime
  -- cuda_array.hpp:125-128
  | .resize s n => match w.arr s with
    | none => .error .lifetime
    | some a => (resizeImpl w.heap a n none ans).bind fun q => .ok (⟨upd w.arr s (some q.1), q.2⟩, [])
  -- cuda_array.hpp:130-133
  | .resizeFill s n v => match w.arr s with
    | none => .error .lifetime
    | some a => (resizeImpl w.heap a n (some v) ans).bind fun q => .ok (⟨upd w.arr s (some q.1), q.2⟩, [])
  | .reserve s n => match w.arr s with
    | none => .error .lifetime
    | some a => (reserveImpl w.heap a n ans).bind fun q => .ok (⟨upd w.arr s (some q.1), q.2⟩, [])
  -- cuda_array.hpp:149-152
  | .load s l => match w.arr s with
    | none => .error .lifetime
    | some a => (toDevice w.heap a.ptr 0 (l.map some) a.size).bind fun h => .ok (⟨w.arr, h⟩, [])
  -- cuda_array.hpp:154-157
  | .save s => match w.arr s with
    | none => .error .lifetime
    | some a => (fromDevice w.heap a.ptr a.size).bind fun l => .ok (w, l)
  -- cuda_array.hpp:97-100
  | .del s => match w.arr s with
    | none => .error .lifetime
    | some a => (deallocate w.heap a.ptr).bind fun h => .ok (⟨upd w.arr s none, h⟩, [])

/-- A program. -/
def run : World V → List (Op V × Ans) → Except UB (World V × List (List (Option V)))
  | w, [] => .ok (w, [])
  | w, (op, ans) :: ops => (step w op ans).bind fun q => (run q.1 ops).map fun q' => (q'.1, q.2 :: q'.2)

/-! ### Specification: vectors with a capacity -/

/-- Named vectors: capacity, and elements. An element without a value is unspecified. -/
abbrev AWorld (V : Type) := Nat → Option (Nat × List (Option V))

/-- What a user expects: the vectors after the operation, and the elements which `save` yields. -/
def Spec.step (a : AWorld V) : Op V → AWorld V × List (Option V)
  | .new s n => (upd a s (some (n, List.replicate n none)), [])
  | .fill s n v => (upd a s (some (n, List.replicate n (some v))), [])
  | .copy s t => match a t with
    | some (_, l) => (upd a s (some (l.length, l)), [])
    | none => (a, [])
  | .host s l n => (upd a s (some (n, (l.take n).map some)), [])
  | .vec s l => (upd a s (some (l.length, l.map some)), [])
  | .assign s t => match a s, a t with
    | some (c, _), some (_, l) => (upd a s (some (max c l.length, l)), [])
    | _, _ => (a, [])
  | .resize s n => match a s with
    | some (c, l) => (upd a s (some (max c n, l.take n ++ List.replicate (n - l.length) none)), [])
    | none => (a, [])
  | .resizeFill s n v => match a s with
    | some (c, l) => (upd a s (some (max c n, l.take n ++ List.replicate (n - l.length) (some v))), [])
    | none => (a, [])
  | .reserve s n => match a s with
    | some (c, l) => (upd a s (some (max c n, l)), [])
    | none => (a, [])
  | .load s l => match a s with
    | some (c, l') => (upd a s (some (c, (l.take l'.length).map some)), [])
    | none => (a, [])
  | .save s => match a s with
    | some (_, l) => (a, l)
    | none => (a, [])
  | .del s => (upd a s none, [])

/-- Legal use: objects are created before and deleted after use, buffers are large enough. Sizes for the filling constructor must fit
    in an `int`, vectors must not be empty. -/
def Spec.Pre (a : AWorld V) : Op V → Prop
  | .new s _ => a s = none
  | .fill s n _ => a s = none ∧ n < 2 ^ 31
  | .copy s t => a s = none ∧ ∃ x, a t = some x
  | .host s l n => a s = none ∧ n ≤ l.length
  | .vec s l => a s = none ∧ l ≠ []
  | .assign s t => (∃ x, a s = some x) ∧ ∃ x, a t = some x
  | .resize s _ => ∃ x, a s = some x
  | .resizeFill s _ _ => ∃ x, a s = some x
  | .reserve s _ => ∃ x, a s = some x
  | .load s l => ∃ c l', a s = some (c, l') ∧ l'.length ≤ l.length
  | .save s => ∃ x, a s = some x
  | .del s => ∃ x, a s = some x

/-- A legal program. -/
def Spec.Legal (a : AWorld V) : List (Op V) → Prop
  | [] => True
  | op :: ops => Spec.Pre a op ∧ Spec.Legal (Spec.step a op).1 ops

/-- Expected output of a program. -/
def Spec.run (a : AWorld V) : List (Op V) → AWorld V × List (List (Option V))
  | [] => (a, [])
  | op :: ops => let q := Spec.step a op; let q' := Spec.run q.1 ops; (q'.1, q.2 :: q'.2)

/-- The values `l` agree with the specified ones. -/
def Agrees (l : List (Option V)) (spec : List (Option V)) : Prop :=
  l.length = spec.length ∧ ∀ (i : Nat) (v : V), spec[i]? = some (some v) → l[i]? = some (some v)

/-- Answers of the environment: `cudaMalloc` succeeds and returns an unused address; the schedule is one of `init_kernel`. -/
def AnsOK (w : World V) (op : Op V) (ans : Ans) : Prop :=
  (∃ p, ans.ptr = some p ∧ w.heap p = none) ∧
  match op with
  | .fill _ n _ => Interleave (initThreads n) ans.sched
  | _ => True

/-- Answers for a program. -/
def AnsRun : World V → List (Op V × Ans) → Prop
  | _, [] => True
  | w, (op, ans) :: ops => AnsOK w op ans ∧ ∀ w' out, step w op ans = .ok (w', out) → AnsRun w' ops

/-! ### Refinement -/

/-- Abstraction relation. -/
structure Rel (w : World V) (a : AWorld V) : Prop where
  hnone : ∀ s, w.arr s = none ↔ a s = none
  hsome : ∀ s x c l, w.arr s = some x → a s = some (c, l) → x.cap = c ∧ x.size = l.length ∧ x.size ≤ x.cap ∧
    ∃ m, w.heap x.ptr = some m ∧ m.length = x.cap ∧ Agrees (m.take x.size) l
  own : ∀ p m, w.heap p = some m → ∃ s x, w.arr s = some x ∧ x.ptr = p
  inj : ∀ s s' x x', w.arr s = some x → w.arr s' = some x' → x.ptr = x'.ptr → s = s'

theorem Rel.init : Rel (World.init : World V) (fun _ => none) :=
  ⟨fun _ => by simp [World.init], fun s x c l h => (nomatch h), fun p m h => (nomatch h), fun s s' x x' h => (nomatch h)⟩

@[simp] theorem upd_self {α : Type} (f : Nat → α) (i : Nat) (a : α) : upd f i a i = a := by simp [upd]
theorem upd_ne {α : Type} (f : Nat → α) {i j : Nat} (a : α) (h : j ≠ i) : upd f i a j = f j := by simp [upd, h]

theorem upd_upd {α : Type} (f : Nat → α) (i : Nat) (a b : α) : upd (upd f i a) i b = upd f i b := by
  funext j; unfold upd; split <;> rfl

theorem Agrees.unspec (l : List (Option V)) : Agrees l (List.replicate l.length none) := by
  refine ⟨by simp, fun i v h => ?_⟩
  rw [List.getElem?_replicate] at h
  split at h <;> simp at h

theorem Agrees.refl (l : List (Option V)) : Agrees l l := ⟨rfl, fun _ _ h => h⟩

/-- An object is created. -/
theorem Rel.create {w : World V} {a : AWorld V} (h : Rel w a) {s p : Nat} (hs : a s = none) (hp : w.heap p = none) {m l : List (Option V)}
    {h' : Heap V} (hh : h' = upd w.heap p (some m)) (hm : m.length = l.length) (hl : Agrees m l) :
    Rel ⟨upd w.arr s (some ⟨l.length, l.length, p⟩), h'⟩ (upd a s (some (l.length, l))) := by
  subst hh
  have hptr : ∀ t x, w.arr t = some x → x.ptr ≠ p := by
    intro t x hx he
    cases ha : a t with
    | none => rw [(h.hnone t).2 ha] at hx; cases hx
    | some q =>
      obtain ⟨_, _, _, m', e, _⟩ := h.hsome t x q.1 q.2 hx ha
      rw [he, hp] at e; cases e
  refine ⟨fun t => ?_, fun t x c l' hx ha => ?_, fun p' m' hm' => ?_, fun t t' x x' hx hx' he => ?_⟩
  · by_cases e : t = s
    · subst e; simp
    · simp only [upd_ne _ _ e]; exact h.hnone t
  · by_cases e : t = s
    · subst e
      simp only [upd_self] at hx ha
      cases hx; cases ha
      refine ⟨rfl, rfl, Nat.le_refl _, m, by simp, hm, ?_⟩
      simp only [← hm, List.take_length]; exact hl
    · simp only [upd_ne _ _ e] at hx ha
      obtain ⟨h1, h2, h3, m', h4, h5⟩ := h.hsome t x c l' hx ha
      exact ⟨h1, h2, h3, m', by simp only; rw [upd_ne _ _ (hptr t x hx)]; exact h4, h5⟩
  · by_cases e : p' = p
    · subst e; exact ⟨s, ⟨l.length, l.length, p'⟩, by simp only [upd_self], rfl⟩
    · simp only [upd_ne _ _ e] at hm'
      obtain ⟨t, x, hx, hxp⟩ := h.own p' m' hm'
      have ht : t ≠ s := by
        rintro rfl
        rw [(h.hnone t).2 hs] at hx; cases hx
      exact ⟨t, x, by simp only [upd_ne _ _ ht]; exact hx, hxp⟩
  · by_cases e : t = s <;> by_cases e' : t' = s
    · rw [e, e']
    · subst e
      simp only [upd_self, upd_ne _ _ e'] at hx hx'
      cases hx
      exact absurd he.symm (hptr t' x' hx')
    · subst e'
      simp only [upd_self, upd_ne _ _ e] at hx hx'
      cases hx'
      exact absurd he (hptr t x hx)
    · simp only [upd_ne _ _ e, upd_ne _ _ e'] at hx hx'
      exact h.inj t t' x x' hx hx' he

/-- An object keeps its memory, or gets another chunk. -/
theorem Rel.change {w : World V} {a : AWorld V} (h : Rel w a) {s : Nat} {x : Arr} (hs : w.arr s = some x) {x' : Arr} {m l : List (Option V)}
    {h' : Heap V} (hh : h' = upd (upd w.heap x.ptr none) x'.ptr (some m)) (hp : x'.ptr = x.ptr ∨ w.heap x'.ptr = none)
    (hsz : x'.size = l.length) (hcap : x'.size ≤ x'.cap) (hm : m.length = x'.cap) (hl : Agrees (m.take x'.size) l) :
    Rel ⟨upd w.arr s (some x'), h'⟩ (upd a s (some (x'.cap, l))) := by
  subst hh
  have hptr : ∀ t y, t ≠ s → w.arr t = some y → y.ptr ≠ x'.ptr ∧ y.ptr ≠ x.ptr := by
    intro t y ht hy
    have h1 : y.ptr ≠ x.ptr := fun he => ht (h.inj t s y x hy hs he)
    refine ⟨fun he => ?_, h1⟩
    rcases hp with hp | hp
    · exact h1 (by rw [he, hp])
    · cases ha : a t with
      | none => rw [(h.hnone t).2 ha] at hy; cases hy
      | some q =>
        obtain ⟨_, _, _, m', e, _⟩ := h.hsome t y q.1 q.2 hy ha
        rw [he, hp] at e; cases e
  refine ⟨fun t => ?_, fun t y c l' hy ha => ?_, fun p' m' hm' => ?_, fun t t' y y' hy hy' he => ?_⟩
  · by_cases e : t = s
    · subst e; simp
    · simp only [upd_ne _ _ e]; exact h.hnone t
  · by_cases e : t = s
    · subst e
      simp only [upd_self] at hy ha
      cases hy; cases ha
      exact ⟨rfl, hsz, hcap, m, by simp, hm, hl⟩
    · simp only [upd_ne _ _ e] at hy ha
      obtain ⟨h1, h2, h3, m', h4, h5⟩ := h.hsome t y c l' hy ha
      obtain ⟨k1, k2⟩ := hptr t y e hy
      exact ⟨h1, h2, h3, m', by simp only; rw [upd_ne _ _ k1, upd_ne _ _ k2]; exact h4, h5⟩
  · by_cases e : p' = x'.ptr
    · exact ⟨s, x', by simp only [upd_self], e.symm⟩
    · simp only [upd_ne _ _ e] at hm'
      by_cases e' : p' = x.ptr
      · subst e'; simp at hm'
      · rw [upd_ne _ _ e'] at hm'
        obtain ⟨t, y, hy, hyp⟩ := h.own p' m' hm'
        have ht : t ≠ s := by
          rintro rfl
          rw [hs] at hy; cases hy
          exact e' hyp.symm
        exact ⟨t, y, by simp only [upd_ne _ _ ht]; exact hy, hyp⟩
  · by_cases e : t = s <;> by_cases e' : t' = s
    · rw [e, e']
    · subst e
      simp only [upd_self, upd_ne _ _ e'] at hy hy'
      cases hy
      exact absurd he.symm (hptr t' y' e' hy').1
    · subst e'
      simp only [upd_self, upd_ne _ _ e] at hy hy'
      cases hy'
      exact absurd he (hptr t y e hy).1
    · simp only [upd_ne _ _ e, upd_ne _ _ e'] at hy hy'
      exact h.inj t t' y y' hy hy' he

/-- An object is deleted. -/
theorem Rel.delete {w : World V} {a : AWorld V} (h : Rel w a) {s : Nat} {x : Arr} (hs : w.arr s = some x) :
    Rel ⟨upd w.arr s none, upd w.heap x.ptr none⟩ (upd a s none) := by
  have hptr : ∀ t y, t ≠ s → w.arr t = some y → y.ptr ≠ x.ptr := fun t y ht hy he => ht (h.inj t s y x hy hs he)
  refine ⟨fun t => ?_, fun t y c l' hy ha => ?_, fun p' m' hm' => ?_, fun t t' y y' hy hy' he => ?_⟩
  · by_cases e : t = s
    · subst e; simp
    · simp only [upd_ne _ _ e]; exact h.hnone t
  · by_cases e : t = s
    · subst e; simp only [upd_self] at hy; cases hy
    · simp only [upd_ne _ _ e] at hy ha
      obtain ⟨h1, h2, h3, m', h4, h5⟩ := h.hsome t y c l' hy ha
      exact ⟨h1, h2, h3, m', by simp only; rw [upd_ne _ _ (hptr t y e hy)]; exact h4, h5⟩
  · by_cases e' : p' = x.ptr
    · subst e'; simp at hm'
    · simp only [upd_ne _ _ e'] at hm'
      obtain ⟨t, y, hy, hyp⟩ := h.own p' m' hm'
      have ht : t ≠ s := by
        rintro rfl
        rw [hs] at hy; cases hy
        exact e' hyp.symm
      exact ⟨t, y, by simp only [upd_ne _ _ ht]; exact hy, hyp⟩
  · by_cases e : t = s
    · subst e; simp only [upd_self] at hy; cases hy
    · by_cases e' : t' = s
      · subst e'; simp only [upd_self] at hy'; cases hy'
      · simp only [upd_ne _ _ e, upd_ne _ _ e'] at hy hy'
        exact h.inj t t' y y' hy hy' he

/-! ### Copying -/

theorem toDevice_ok {h : Heap V} {p off n : Nat} {l src : List (Option V)} (hp : h p = some l) (h1 : off + n ≤ l.length)
    (h2 : n ≤ src.length) : toDevice h p off src n = .ok (upd h p (some (l.take off ++ src.take n ++ l.drop (off + n)))) := by
  unfold toDevice
  by_cases h0 : n = 0
  · subst h0
    rw [if_pos rfl]
    congr 1
    funext j
    unfold upd
    split
    · rename_i e; subst e; rw [hp]; simp
    · rfl
  · rw [if_neg h0, hp]
    simp only
    rw [if_pos ⟨h1, h2⟩]

theorem fromDevice_ok {h : Heap V} {p n : Nat} {l : List (Option V)} (hp : h p = some l) (h1 : n ≤ l.length) :
    fromDevice h p n = .ok (l.take n) := by
  unfold fromDevice
  by_cases h0 : n = 0
  · subst h0; rw [if_pos rfl]; simp
  · rw [if_neg h0, hp]
    simp only
    rw [if_pos h1]

/-- Elements `[lo, hi)` are set. -/
def setRange (l : List (Option V)) (lo hi : Nat) (v : V) : List (Option V) :=
  l.mapIdx fun i x => if lo ≤ i ∧ i < hi then some v else x

theorem setRange_length (l : List (Option V)) (lo hi : Nat) (v : V) : (setRange l lo hi v).length = l.length := by
  simp [setRange]

theorem setRange_get (l : List (Option V)) (lo hi : Nat) (v : V) (i : Nat) (x : Option V) (h : (setRange l lo hi v)[i]? = some x) :
    ∃ y, l[i]? = some y ∧ x = if lo ≤ i ∧ i < hi then some v else y := by
  unfold setRange at h
  rw [List.getElem?_mapIdx] at h
  cases hy : l[i]? with
  | none => rw [hy] at h; cases h
  | some y =>
    rw [hy] at h
    simp only [Option.map_some, Option.some.injEq] at h
    exact ⟨y, rfl, h.symm⟩

theorem put_one (l : List (Option V)) (i : Nat) (hi : i < l.length) (v : V) :
    l.take i ++ [some v].take 1 ++ l.drop (i + 1) = l.set i (some v) := by
  rw [List.set_eq_take_append_cons_drop, if_pos hi]
  simp

theorem toDevice_one {h : Heap V} {p i : Nat} {l : List (Option V)} {v : V} (hp : h p = some l) (hi : i < l.length) :
    toDevice h p i [some v] 1 = .ok (upd h p (some (l.set i (some v)))) := by
  rw [toDevice_ok hp (by omega) (by simp), put_one l i hi]

theorem fillFrom_ok {h : Heap V} {p lo hi : Nat} {l : List (Option V)} {v : V} (hp : h p = some l) (hh : hi ≤ l.length) :
    fillFrom h p lo hi v = .ok (upd h p (some (setRange l lo hi v))) := by
  unfold fillFrom
  have key : ∀ n, lo + n ≤ l.length → loopM n (fun i h => toDevice h p (lo + i) [some v] 1) h =
      .ok (upd h p (some (setRange l lo (lo + n) v))) := by
    intro n
    induction n with
    | zero =>
      intro _
      simp only [loopM]
      congr 1
      funext j
      unfold upd
      split
      · rename_i e; subst e
        rw [hp]
        congr 1
        apply List.ext_getElem?
        intro i
        unfold setRange
        rw [List.getElem?_mapIdx]
        cases l[i]? with
        | none => rfl
        | some y => simp only [Option.map_some]; rw [if_neg (by omega)]
      · rfl
    | succ n ih =>
      intro hn
      rw [loopM_succ, ih (by omega)]
      show toDevice _ p (lo + n) [some v] 1 = _
      rw [toDevice_one (upd_self _ _ _) (by rw [setRange_length]; omega), upd_upd]
      congr 3
      apply List.ext_getElem?
      intro i
      by_cases e : i = lo + n
      · subst e
        rw [List.getElem?_set_self (by rw [setRange_length]; omega)]
        unfold setRange
        rw [List.getElem?_mapIdx]
        obtain ⟨y, hy⟩ : ∃ y, l[lo + n]? = some y := ⟨_, List.getElem?_eq_getElem (by omega)⟩
        rw [hy]
        simp only [Option.map_some]
        rw [if_pos (by omega)]
      · rw [List.getElem?_set_ne (Ne.symm e)]
        unfold setRange
        rw [List.getElem?_mapIdx, List.getElem?_mapIdx]
        cases l[i]? with
        | none => rfl
        | some y =>
          simp only [Option.map_some]
          congr 1
          by_cases hi : lo ≤ i ∧ i < lo + n
          · rw [if_pos hi, if_pos (by omega)]
          · rw [if_neg hi, if_neg (by omega)]
  by_cases hle : lo ≤ hi
  · have := key (hi - lo) (by omega)
    rw [show lo + (hi - lo) = hi by omega] at this
    exact this
  · rw [show hi - lo = 0 by omega]
    simp only [loopM]
    congr 1
    funext j
    unfold upd
    split
    · rename_i e; subst e
      rw [hp]
      congr 1
      apply List.ext_getElem?
      intro i
      unfold setRange
      rw [List.getElem?_mapIdx]
      cases l[i]? with
      | none => rfl
      | some y => simp only [Option.map_some]; rw [if_neg (by omega)]
    · rfl

/-- All threads of `init_kernel`. -/
theorem initThreads_flatten {n : Nat} (hn : n < 2 ^ 31) : (initThreads n).flatten = List.range n := by
  have := kernel1 hn (fun i => [i]) (initKernel n) (fun bd t => guard1 _ _ _)
  unfold initThreads
  rw [this]
  simp

theorem init_run {h : Heap V} {p : Nat} {v : V} (sched : List Nat) : ∀ {l : List (Option V)}, h p = some l → (∀ i ∈ sched, i < l.length) →
    ∃ l', runL (initExec v p) sched h = .ok (upd h p (some l')) ∧ l'.length = l.length ∧
      ∀ i, l'[i]? = if i ∈ sched then some (some v) else l[i]? := by
  induction sched generalizing h with
  | nil =>
    intro l hp _
    refine ⟨l, ?_, rfl, fun i => by simp⟩
    simp only [runL]
    congr 1
    funext j
    unfold upd
    split
    · rename_i e; subst e; exact hp
    · rfl
  | cons i0 sched ih =>
    intro l hp hs
    have h0 := hs i0 (by simp)
    obtain ⟨l', k1, k2, k3⟩ := ih (h := upd h p (some (l.set i0 (some v)))) (l := l.set i0 (some v)) (upd_self _ _ _)
      (fun i hi => by rw [List.length_set]; exact hs i (List.mem_cons_of_mem _ hi))
    refine ⟨l', ?_, by rw [k2, List.length_set], fun i => ?_⟩
    · simp only [runL]
      unfold initExec
      rw [toDevice_one hp h0]
      rw [upd_upd] at k1
      exact k1
    · rw [k3]
      by_cases h1 : i ∈ sched
      · simp [h1]
      · rw [if_neg h1]
        by_cases h2 : i = i0
        · subst h2
          rw [List.getElem?_set_self h0]; simp
        · rw [List.getElem?_set_ne (Ne.symm h2)]
          simp [h1, h2]

/-! ### Each operation refines its specification -/

theorem upd_same {α : Type} {f : Nat → α} {i : Nat} {x : α} (h : f i = x) : upd f i x = f := by
  funext j; unfold upd; split
  · rename_i e; rw [e, h]
  · rfl

theorem devToDev_ok {h : Heap V} {dst src n : Nat} {m l : List (Option V)} (hd : h dst = some m) (hs : h src = some l)
    (h1 : n ≤ m.length) (h2 : n ≤ l.length) :
    devToDev h dst src n = .ok (upd h dst (some (l.take n ++ m.drop n))) := by
  unfold devToDev
  rw [fromDevice_ok hs h2]
  simp only [Except.bind]
  rw [toDevice_ok hd (by omega) (by simp; omega)]
  simp [List.take_take]

theorem Agrees.take_append {m l : List (Option V)} {n : Nat} {rest : List (Option V)} (h : Agrees (m.take n) l) (hn : n ≤ m.length) :
    Agrees ((m.take n ++ rest).take n) l := by
  have : (m.take n ++ rest).take n = m.take n := by
    rw [List.take_append_of_le_length (by simp; omega), List.take_take, Nat.min_self]
  rw [this]; exact h

/-- Elements added by resize: `fillv` is the value, if there is one. -/
theorem Agrees.resize {m m' l : List (Option V)} {k n : Nat} {x : Option V} (h : Agrees (m.take k) l) (hk : k = l.length)
    (hn : n ≤ m'.length) (hold : ∀ i, i < k → m'[i]? = m[i]?)
    (hnew : ∀ i v, x = some v → k ≤ i → i < n → m'[i]? = some (some v)) :
    Agrees (m'.take n) (l.take n ++ List.replicate (n - l.length) x) := by
  obtain ⟨h1, h2⟩ := h
  refine ⟨by simp; omega, fun i v hv => ?_⟩
  have hlt : i < n := by
    have := (List.getElem?_eq_some_iff.1 hv).1
    simp at this; omega
  rw [List.getElem?_take_of_lt hlt]
  by_cases hik : i < k
  · rw [hold i hik]
    have := h2 i v (by
      rw [List.getElem?_append_left (by simp; omega), List.getElem?_take_of_lt hlt] at hv
      exact hv)
    rw [List.getElem?_take_of_lt hik] at this
    exact this
  · rw [List.getElem?_append_right (by simp; omega), List.getElem?_replicate] at hv
    split at hv
    · simp only [Option.some.injEq] at hv
      exact hnew i v hv (by omega) hlt
    · cases hv

theorem setRange_out (l : List (Option V)) {lo hi : Nat} (v : V) {i : Nat} (h : ¬ (lo ≤ i ∧ i < hi)) : (setRange l lo hi v)[i]? = l[i]? := by
  unfold setRange
  rw [List.getElem?_mapIdx]
  cases l[i]? with
  | none => rfl
  | some y => simp only [Option.map_some]; rw [if_neg h]

theorem setRange_in (l : List (Option V)) {lo hi : Nat} (v : V) {i : Nat} (h : lo ≤ i ∧ i < hi) (hl : i < l.length) :
    (setRange l lo hi v)[i]? = some (some v) := by
  unfold setRange
  rw [List.getElem?_mapIdx, List.getElem?_eq_getElem hl]
  simp only [Option.map_some]; rw [if_pos h]

theorem upd_comm {α : Type} (f : Nat → α) {i j : Nat} (a b : α) (h : i ≠ j) : upd (upd f i a) j b = upd (upd f j b) i a := by
  funext k; unfold upd
  by_cases h1 : k = j
  · by_cases h2 : k = i
    · exact absurd (h2.symm.trans h1) h
    · simp [h1, Ne.symm h]
  · simp [h1]

/-- `resize`, with or without a value. -/
theorem resize_ok {w : World V} {a : AWorld V} (h : Rel w a) {s n c : Nat} {l : List (Option V)} (ha : a s = some (c, l)) {x : Arr}
    (hx : w.arr s = some x) (d : Option V) {ans : Ans} {p : Nat} (hp : ans.ptr = some p) (hfree : w.heap p = none) :
    ∃ x' h', resizeImpl w.heap x n d ans = .ok (x', h') ∧
      Rel ⟨upd w.arr s (some x'), h'⟩ (upd a s (some (max c n, l.take n ++ List.replicate (n - l.length) d))) := by
  obtain ⟨h1, h2, h3, m, h4, h5, h6⟩ := h.hsome s x c l hx ha
  unfold resizeImpl
  by_cases hn : n ≤ x.cap
  · rw [if_pos hn]
    have hmax : max c n = x.cap := by omega
    rw [hmax]
    cases d with
    | none =>
      refine ⟨{ x with size := n }, w.heap, rfl, ?_⟩
      refine h.change hx (x' := { x with size := n }) (m := m) ?_ (.inl rfl) ?_ hn h5 ?_
      · simp only [upd_upd]; rw [upd_same h4]
      · simp; omega
      · exact Agrees.resize h6 h2 (by simp only; omega) (fun _ _ => rfl) (fun _ _ hv => (nomatch hv))
    | some v =>
      refine ⟨{ x with size := n }, upd w.heap x.ptr (some (setRange m x.size n v)), ?_, ?_⟩
      · simp only [fillFrom_ok h4 (show n ≤ m.length by omega)]
        rfl
      · refine h.change hx (x' := { x with size := n }) (m := setRange m x.size n v) ?_ (.inl rfl) ?_ hn ?_ ?_
        · simp only [upd_upd]
        · simp; omega
        · rw [setRange_length]; exact h5
        · refine Agrees.resize h6 h2 (by rw [setRange_length]; simp only; omega) (fun i hi => setRange_out _ _ (by omega)) ?_
          intro i v' hv h7 h8
          cases hv
          exact setRange_in _ _ ⟨h7, h8⟩ (by simp only at h8; omega)
  · rw [if_neg hn]
    have hmax : max c n = n := by omega
    rw [hmax]
    have hpx : p ≠ x.ptr := by rintro rfl; rw [hfree] at h4; cases h4
    have hal : allocate w.heap n ans = .ok (p, upd w.heap p (some (List.replicate n none))) := by unfold allocate; rw [hp]
    have hcp := devToDev_ok (h := upd w.heap p (some (List.replicate n none))) (dst := p) (src := x.ptr) (n := x.size)
      (m := List.replicate n none) (l := m) (upd_self _ _ _) (by rw [upd_ne _ _ (Ne.symm hpx)]; exact h4) (by simp; omega) (by omega)
    rw [upd_upd] at hcp
    have hde : deallocate (upd w.heap p (some (m.take x.size ++ (List.replicate n none).drop x.size))) x.ptr =
        .ok (upd (upd w.heap x.ptr none) p (some (m.take x.size ++ (List.replicate n none).drop x.size))) := by
      unfold deallocate
      rw [upd_ne _ _ (Ne.symm hpx), h4]
      simp only
      rw [upd_comm _ _ _ hpx]
    have hlen : (m.take x.size ++ (List.replicate n none : List (Option V)).drop x.size).length = n := by simp; omega
    have hold : ∀ i, i < x.size → (m.take x.size ++ (List.replicate n none : List (Option V)).drop x.size)[i]? = m[i]? := by
      intro i hi
      rw [List.getElem?_append_left (by simp; omega), List.getElem?_take_of_lt hi]
    rw [hal]
    simp only [Except.bind, hcp, hde]
    cases d with
    | none =>
      refine ⟨⟨n, n, p⟩, _, rfl, ?_⟩
      refine h.change hx (x' := ⟨n, n, p⟩) rfl (.inr hfree) ?_ (Nat.le_refl _) hlen ?_
      · simp; omega
      · exact Agrees.resize h6 h2 (by rw [hlen]) hold (fun _ _ hv => (nomatch hv))
    | some v =>
      have hfi := fillFrom_ok (h := upd (upd w.heap x.ptr none) p (some (m.take x.size ++ (List.replicate n none).drop x.size)))
        (p := p) (lo := x.size) (hi := n) (v := v) (upd_self _ _ _) (by rw [hlen])
      rw [upd_upd] at hfi
      simp only [hfi]
      refine ⟨⟨n, n, p⟩, _, rfl, ?_⟩
      refine h.change hx (x' := ⟨n, n, p⟩) rfl (.inr hfree) ?_ (Nat.le_refl _) (by rw [setRange_length]; exact hlen) ?_
      · simp; omega
      · refine Agrees.resize h6 h2 (by rw [setRange_length, hlen]) (fun i hi => ?_) ?_
        · rw [setRange_out _ _ (by omega)]; exact hold i hi
        · intro i v' hv h7 h8
          cases hv
          exact setRange_in _ _ ⟨h7, h8⟩ (by rw [hlen]; exact h8)

theorem reserve_ok {w : World V} {a : AWorld V} (h : Rel w a) {s n c : Nat} {l : List (Option V)} (ha : a s = some (c, l)) {x : Arr}
    (hx : w.arr s = some x) {ans : Ans} {p : Nat} (hp : ans.ptr = some p) (hfree : w.heap p = none) :
    ∃ x' h', reserveImpl w.heap x n ans = .ok (x', h') ∧ Rel ⟨upd w.arr s (some x'), h'⟩ (upd a s (some (max c n, l))) := by
  obtain ⟨h1, h2, h3, m, h4, h5, h6⟩ := h.hsome s x c l hx ha
  unfold reserveImpl
  by_cases hn : n ≤ x.cap
  · rw [if_pos hn]
    have hmax : max c n = x.cap := by omega
    rw [hmax]
    refine ⟨x, w.heap, rfl, ?_⟩
    refine h.change hx (x' := x) (m := m) ?_ (.inl rfl) h2 h3 h5 h6
    rw [upd_upd, upd_same h4]
  · rw [if_neg hn]
    have hmax : max c n = n := by omega
    rw [hmax]
    have hpx : p ≠ x.ptr := by rintro rfl; rw [hfree] at h4; cases h4
    have hal : allocate w.heap n ans = .ok (p, upd w.heap p (some (List.replicate n none))) := by unfold allocate; rw [hp]
    have hcp := devToDev_ok (h := upd w.heap p (some (List.replicate n none))) (dst := p) (src := x.ptr) (n := x.size)
      (m := List.replicate n none) (l := m) (upd_self _ _ _) (by rw [upd_ne _ _ (Ne.symm hpx)]; exact h4) (by simp; omega) (by omega)
    rw [upd_upd] at hcp
    have hde : deallocate (upd w.heap p (some (m.take x.size ++ (List.replicate n none).drop x.size))) x.ptr =
        .ok (upd (upd w.heap x.ptr none) p (some (m.take x.size ++ (List.replicate n none).drop x.size))) := by
      unfold deallocate
      rw [upd_ne _ _ (Ne.symm hpx), h4]
      simp only
      rw [upd_comm _ _ _ hpx]
    rw [hal]
    simp only [Except.bind, hcp, hde]
    refine ⟨{ x with ptr := p, cap := n }, _, rfl, ?_⟩
    exact h.change hx (x' := { x with ptr := p, cap := n }) rfl (.inr hfree) h2 (by simp only; omega) (by simp; omega)
      (h6.take_append (by omega))

theorem assign_ok {w : World V} {a : AWorld V} (h : Rel w a) {s t c ct : Nat} {l lt : List (Option V)} (ha : a s = some (c, l))
    (hat : a t = some (ct, lt)) {x o : Arr} (hx : w.arr s = some x) (ho : w.arr t = some o) {ans : Ans} {p : Nat}
    (hp : ans.ptr = some p) (hfree : w.heap p = none) :
    ∃ x' h', assignImpl w.heap x o (s == t) ans = .ok (x', h') ∧
      Rel ⟨upd w.arr s (some x'), h'⟩ (upd a s (some (max c lt.length, lt))) := by
  obtain ⟨h1, h2, h3, m, h4, h5, h6⟩ := h.hsome s x c l hx ha
  obtain ⟨k1, k2, k3, mo, k4, k5, k6⟩ := h.hsome t o ct lt ho hat
  unfold assignImpl
  by_cases hn : o.size > x.cap
  · rw [if_pos hn]
    have hst : s ≠ t := by
      rintro rfl
      rw [hx] at ho; cases ho; omega
    have hop : o.ptr ≠ x.ptr := fun he => hst (h.inj s t x o hx ho he.symm)
    have hpx : p ≠ x.ptr := by rintro rfl; rw [hfree] at h4; cases h4
    have hpo : p ≠ o.ptr := by rintro rfl; rw [hfree] at k4; cases k4
    have hde : deallocate w.heap x.ptr = .ok (upd w.heap x.ptr none) := by unfold deallocate; rw [h4]
    have hal : allocate (upd w.heap x.ptr none) o.size ans = .ok (p, upd (upd w.heap x.ptr none) p (some (List.replicate o.size none))) := by
      unfold allocate; rw [hp]
    have hcp := devToDev_ok (h := upd (upd w.heap x.ptr none) p (some (List.replicate o.size none))) (dst := p) (src := o.ptr) (n := o.size)
      (m := List.replicate o.size none) (l := mo) (upd_self _ _ _) (by
        rw [upd_ne _ _ (Ne.symm hpo), upd_ne _ _ hop]; exact k4) (by simp) (by omega)
    rw [upd_upd] at hcp
    rw [hde]
    have hb : (s == t) = false := by simpa using hst
    simp only [Except.bind, hal, hb, Bool.false_eq_true, if_false, hcp]
    refine ⟨_, _, rfl, ?_⟩
    have hmax : max c lt.length = o.size := by omega
    rw [hmax]
    exact h.change hx (x' := ⟨o.size, o.size, p⟩) rfl (.inr hfree) k2 (Nat.le_refl _) (by simp; omega) (k6.take_append (by omega))
  · rw [if_neg hn]
    simp only [Except.bind]
    have hsrc : w.heap (if (s == t) = true then x.ptr else o.ptr) = some mo := by
      by_cases hst : s = t
      · subst hst
        rw [hx] at ho; cases ho
        simp only [beq_self_eq_true, if_true]; exact k4
      · have hb : (s == t) = false := by simpa using hst
        rw [hb]; exact k4
    rw [devToDev_ok (n := o.size) h4 hsrc (by omega) (by omega)]
    simp only
    refine ⟨_, _, rfl, ?_⟩
    have hmax : max c lt.length = x.cap := by omega
    rw [hmax]
    refine h.change hx (x' := { x with size := o.size }) (m := mo.take o.size ++ m.drop o.size) ?_ (.inl rfl) k2 (by simp only; omega) ?_
      (k6.take_append (by omega))
    · simp only [upd_upd]
    · simp; omega

/-- Each legal operation is safe and does what the specification says. -/
theorem step_ok {w : World V} {a : AWorld V} (h : Rel w a) {op : Op V} {ans : Ans} (hpre : Spec.Pre a op) (hans : AnsOK w op ans) :
    ∃ w' out, step w op ans = .ok (w', out) ∧ Rel w' (Spec.step a op).1 ∧ Agrees out (Spec.step a op).2 := by
  obtain ⟨⟨p, hp, hfree⟩, hop⟩ := hans
  have hal : ∀ n, allocate w.heap n ans = .ok (p, upd w.heap p (some (List.replicate n none))) := by
    intro n; unfold allocate; rw [hp]
  have hex : ∀ {s c l}, a s = some (c, l) → ∃ x, w.arr s = some x := by
    intro s c l ha
    cases hx : w.arr s with
    | none => rw [(h.hnone s).1 hx] at ha; cases ha
    | some x => exact ⟨x, rfl⟩
  cases op with
  | new s n =>
    simp only [step, hal, Except.bind]
    refine ⟨_, _, rfl, ?_, Agrees.refl _⟩
    simp only [Spec.step]
    have := h.create (s := s) (p := p) (m := List.replicate n none) (l := List.replicate n none) hpre hfree rfl rfl (Agrees.refl _)
    simp only [List.length_replicate] at this
    exact this
  | fill s n v =>
    obtain ⟨hs, hn⟩ := hpre
    simp only [step, hal, Except.bind]
    have hperm := hop.perm
    rw [initThreads_flatten hn] at hperm
    obtain ⟨l', k1, k2, k3⟩ := init_run (h := upd w.heap p (some (List.replicate n none))) (p := p) (v := v) ans.sched
      (l := List.replicate n none) (upd_self _ _ _) (fun i hi => by
        rw [List.length_replicate]; exact List.mem_range.1 (hperm.mem_iff.1 hi))
    rw [upd_upd] at k1
    simp only [k1]
    refine ⟨_, _, rfl, ?_, Agrees.refl _⟩
    simp only [Spec.step]
    have hl' : l' = List.replicate n (some v) := by
      apply List.ext_getElem?
      intro i
      rw [k3]
      by_cases hi : i < n
      · rw [if_pos (hperm.mem_iff.2 (List.mem_range.2 hi)), List.getElem?_replicate, if_pos hi]
      · rw [if_neg (fun hm => hi (List.mem_range.1 (hperm.mem_iff.1 hm))), List.getElem?_replicate, if_neg hi,
          List.getElem?_replicate, if_neg hi]
    subst hl'
    have := h.create (s := s) (p := p) (m := List.replicate n (some v)) (l := List.replicate n (some v)) hs hfree rfl rfl (Agrees.refl _)
    simp only [List.length_replicate] at this
    exact this
  | copy s t =>
    obtain ⟨hs, ⟨c, l⟩, ht⟩ := hpre
    obtain ⟨o, ho⟩ := hex ht
    obtain ⟨h1, h2, h3, m, h4, h5, h6⟩ := h.hsome t o c l ho ht
    have hpo : p ≠ o.ptr := by rintro rfl; rw [hfree] at h4; cases h4
    have hcp := devToDev_ok (h := upd w.heap p (some (List.replicate o.size none))) (dst := p) (src := o.ptr) (n := o.size)
      (m := List.replicate o.size none) (l := m) (upd_self _ _ _) (by rw [upd_ne _ _ (Ne.symm hpo)]; exact h4) (by simp) (by omega)
    rw [upd_upd] at hcp
    simp only [step, ho, hal, Except.bind, hcp]
    refine ⟨_, _, rfl, ?_, by simp only [Spec.step, ht]; exact Agrees.refl _⟩
    simp only [Spec.step, ht]
    rw [h2]
    refine h.create hs hfree rfl ?_ ?_
    · simp; omega
    · have := h6.take_append (rest := (List.replicate l.length none).drop l.length) (by omega)
      rw [h2] at this
      rw [List.take_of_length_le (by simp)] at this
      exact this
  | host s l n =>
    obtain ⟨hs, hn⟩ := hpre
    simp only [step, hal, Except.bind]
    rw [toDevice_ok (l := List.replicate n none) (upd_self _ _ _) (by simp) (by simpa using hn)]
    simp only
    refine ⟨_, _, rfl, ?_, Agrees.refl _⟩
    simp only [Spec.step]
    have hlen : ((l.take n).map some).length = n := by simp; omega
    have := h.create (s := s) (p := p) (m := (l.take n).map some) (l := (l.take n).map some) hs hfree rfl rfl (Agrees.refl _)
    rw [hlen] at this
    have e : (List.replicate n none : List (Option V)).take 0 ++ (l.map some).take n ++ (List.replicate n none).drop (0 + n) =
        (l.take n).map some := by
      rw [List.take_zero, List.nil_append, List.drop_of_length_le (by simp), List.append_nil, List.map_take]
    rw [upd_upd, e]
    exact this
  | vec s l =>
    obtain ⟨hs, hne⟩ := hpre
    simp only [step, hal, Except.bind, if_neg hne]
    rw [toDevice_ok (l := List.replicate l.length none) (upd_self _ _ _) (by simp) (by simp)]
    simp only
    refine ⟨_, _, rfl, ?_, Agrees.refl _⟩
    simp only [Spec.step]
    have hlen : (l.map some).length = l.length := by simp
    have := h.create (s := s) (p := p) (m := l.map some) (l := l.map some) hs hfree rfl rfl (Agrees.refl _)
    rw [hlen] at this
    have e : (List.replicate l.length none : List (Option V)).take 0 ++ (l.map some).take l.length ++
        (List.replicate l.length none).drop (0 + l.length) = l.map some := by
      rw [List.take_zero, List.nil_append, List.drop_of_length_le (by simp), List.append_nil, List.take_of_length_le (by simp)]
    rw [upd_upd, e]
    exact this
  | assign s t =>
    obtain ⟨⟨⟨c, l⟩, hs⟩, ⟨ct, lt⟩, ht⟩ := hpre
    obtain ⟨x, hx⟩ := hex hs
    obtain ⟨o, ho⟩ := hex ht
    obtain ⟨x', h', e1, e2⟩ := assign_ok h hs ht hx ho hp hfree
    simp only [step, hx, ho, e1, Except.bind]
    exact ⟨_, _, rfl, by simp only [Spec.step, hs, ht]; exact e2, by simp only [Spec.step, hs, ht]; exact Agrees.refl _⟩
  | resize s n =>
    obtain ⟨⟨c, l⟩, hs⟩ := hpre
    obtain ⟨x, hx⟩ := hex hs
    obtain ⟨x', h', e1, e2⟩ := resize_ok h (n := n) hs hx none hp hfree
    simp only [step, hx, e1, Except.bind]
    exact ⟨_, _, rfl, by simp only [Spec.step, hs]; exact e2, by simp only [Spec.step, hs]; exact Agrees.refl _⟩
  | resizeFill s n v =>
    obtain ⟨⟨c, l⟩, hs⟩ := hpre
    obtain ⟨x, hx⟩ := hex hs
    obtain ⟨x', h', e1, e2⟩ := resize_ok h (n := n) hs hx (some v) hp hfree
    simp only [step, hx, e1, Except.bind]
    exact ⟨_, _, rfl, by simp only [Spec.step, hs]; exact e2, by simp only [Spec.step, hs]; exact Agrees.refl _⟩
  | reserve s n =>
    obtain ⟨⟨c, l⟩, hs⟩ := hpre
    obtain ⟨x, hx⟩ := hex hs
    obtain ⟨x', h', e1, e2⟩ := reserve_ok h (n := n) hs hx hp hfree
    simp only [step, hx, e1, Except.bind]
    exact ⟨_, _, rfl, by simp only [Spec.step, hs]; exact e2, by simp only [Spec.step, hs]; exact Agrees.refl _⟩
  | load s l =>
    obtain ⟨c, l', hs, hlen⟩ := hpre
    obtain ⟨x, hx⟩ := hex hs
    obtain ⟨h1, h2, h3, m, h4, h5, h6⟩ := h.hsome s x c l' hx hs
    simp only [step, hx]
    rw [toDevice_ok h4 (by omega) (by simp; omega)]
    refine ⟨_, _, rfl, ?_, by simp only [Spec.step, hs]; exact Agrees.refl _⟩
    simp only [Spec.step, hs]
    have := h.change hx (x' := x) (m := m.take 0 ++ (l.map some).take x.size ++ m.drop (0 + x.size)) (l := (l.take l'.length).map some)
      (by rw [upd_upd]) (.inl rfl) (by simp; omega) h3 (by simp; omega) (by
        rw [List.take_zero, List.nil_append, List.take_append_of_le_length (by simp; omega), List.take_take, Nat.min_self, h2,
          ← List.map_take]
        exact Agrees.refl _)
    rw [upd_same hx, h1] at this
    exact this
  | save s =>
    obtain ⟨⟨c, l⟩, hs⟩ := hpre
    obtain ⟨x, hx⟩ := hex hs
    obtain ⟨h1, h2, h3, m, h4, h5, h6⟩ := h.hsome s x c l hx hs
    simp only [step, hx]
    rw [fromDevice_ok h4 (by omega)]
    exact ⟨w, m.take x.size, rfl, by simp only [Spec.step, hs]; exact h, by simp only [Spec.step, hs]; exact h6⟩
  | del s =>
    obtain ⟨⟨c, l⟩, hs⟩ := hpre
    obtain ⟨x, hx⟩ := hex hs
    obtain ⟨h1, h2, h3, m, h4, h5, h6⟩ := h.hsome s x c l hx hs
    simp only [step, hx]
    have hde : deallocate w.heap x.ptr = .ok (upd w.heap x.ptr none) := by unfold deallocate; rw [h4]
    rw [hde]
    exact ⟨_, _, rfl, h.delete hx, Agrees.refl _⟩

/-- The same for programs. -/
theorem run_ok {w : World V} {a : AWorld V} (h : Rel w a) (prog : List (Op V × Ans)) (hl : Spec.Legal a (prog.map Prod.fst))
    (ha : AnsRun w prog) : ∃ w' outs, run w prog = .ok (w', outs) ∧ Rel w' (Spec.run a (prog.map Prod.fst)).1 ∧
      List.Forall₂ Agrees outs (Spec.run a (prog.map Prod.fst)).2 := by
  induction prog generalizing w a with
  | nil => exact ⟨w, [], rfl, h, .nil⟩
  | cons q prog ih =>
    obtain ⟨op, ans⟩ := q
    obtain ⟨w1, out, e1, e2, e3⟩ := step_ok h hl.1 ha.1
    obtain ⟨w2, outs, k1, k2, k3⟩ := ih e2 hl.2 (ha.2 w1 out e1)
    refine ⟨w2, out :: outs, ?_, k2, .cons e3 k3⟩
    simp only [run, e1, Except.bind, k1]
    rfl

end LFA.CA
