import Verif.CudaArray

/-
  cuda_array and cuda_allocator in 64-bit arithmetic: `n * sizeof(ELEMENT_TYPE)` is a `std::size_t` and wraps around.

  Simplifications as in `Verif.CudaArray`, but for sizes. An element of which only some bytes have been copied has an unspecified value.
-/
set_option linter.unusedSectionVars false
set_option linter.unusedVariables false
namespace LFA.CA
variable {V : Type} (sz : Nat)

/-- `n * sizeof(ELEMENT_TYPE)` (cuda_allocator.hpp:52) and `byte_size()` (cuda_array.hpp:159-162). -/
def byteSize (n : Nat) : Nat := n * sz % 2 ^ 64

/-- `cuda_allocator::allocate` (cuda_allocator.hpp:49-54): memory for as many elements as fit into the requested bytes. -/
def mallocate (h : Heap V) (n : Nat) (ans : Ans) : Except UB (Nat × Heap V) := allocate h (byteSize sz n / sz) ans

/-- Part of element `i` has been overwritten. Simplification: bytes behind the last whole element of a chunk are not modelled. -/
def smear (h : Heap V) (dst i : Nat) : Except UB (Heap V) :=
  match h dst with
  | none => .error .lifetime
  | some l => if i < l.length then toDevice h dst i [none] 1 else .ok h

/-- `cudaMemcpy(dst, src, bytes, …)` to device memory. -/
def mtoDevice (h : Heap V) (dst : Nat) (src : List (Option V)) (bytes : Nat) : Except UB (Heap V) :=
  (toDevice h dst 0 src (bytes / sz)).bind fun h => if bytes % sz = 0 then .ok h else smear h dst (bytes / sz)

/-- `cudaMemcpy(dst, src, bytes, cudaMemcpyDeviceToHost)`: the elements which arrive. -/
def mfromDevice (h : Heap V) (src : Nat) (bytes : Nat) : Except UB (List (Option V)) :=
  (fromDevice h src (bytes / sz)).map fun l => if bytes % sz = 0 then l else l ++ [none]

/-- `cudaMemcpy(dst, src, bytes, cudaMemcpyDeviceToDevice)`. -/
def mdevToDev (h : Heap V) (dst src bytes : Nat) : Except UB (Heap V) :=
  (fromDevice h src (bytes / sz)).bind fun l => mtoDevice sz h dst l bytes

/-- `resize_implementation` (cuda_array.hpp:180-215). -/
def mresizeImpl (h : Heap V) (a : Arr) (newSize : Nat) (defaultElement : Option V) (ans : Ans) : Except UB (Arr × Heap V) :=
  if newSize ≤ a.cap then
    (match defaultElement with
      | some v => fillFrom h a.ptr a.size newSize v
      | none => .ok h).bind fun h => .ok ({ a with size := newSize }, h)
  else
    (mallocate sz h newSize ans).bind fun q =>
    (mdevToDev sz q.2 q.1 a.ptr (byteSize sz a.size)).bind fun h =>
    (deallocate h a.ptr).bind fun h =>
    (match defaultElement with
      | some v => fillFrom h q.1 a.size newSize v
      | none => .ok h).bind fun h =>
    .ok (⟨newSize, newSize, q.1⟩, h)

/-- `reserve` (cuda_array.hpp:135-147). -/
def mreserveImpl (h : Heap V) (a : Arr) (newCap : Nat) (ans : Ans) : Except UB (Arr × Heap V) :=
  if newCap ≤ a.cap then .ok (a, h)
  else
    (mallocate sz h newCap ans).bind fun q =>
    (mdevToDev sz q.2 q.1 a.ptr (byteSize sz a.size)).bind fun h =>
    (deallocate h a.ptr).bind fun h =>
    .ok ({ a with ptr := q.1, cap := newCap }, h)

/-- `operator=` (cuda_array.hpp:102-113). -/
def massignImpl (h : Heap V) (a o : Arr) (self : Bool) (ans : Ans) : Except UB (Arr × Heap V) :=
  (if o.size > a.cap then
    (deallocate h a.ptr).bind fun h => (mallocate sz h o.size ans).bind fun q => .ok (({ a with ptr := q.1, cap := o.size } : Arr), q.2)
  else .ok (a, h)).bind fun q =>
  let a : Arr := { q.1 with size := o.size }
  (mdevToDev sz q.2 a.ptr (if self then a.ptr else o.ptr) (byteSize sz a.size)).bind fun h => .ok (a, h)

/-- An operation (lines as in `step`). -/
def mstep (w : World V) (op : Op V) (ans : Ans) : Except UB (World V × List (Option V)) :=
  match op with
  | .new s n => (mallocate sz w.heap n ans).bind fun q => .ok (⟨upd w.arr s (some ⟨n, n, q.1⟩), q.2⟩, [])
  | .fill s n v => (mallocate sz w.heap n ans).bind fun q =>
      (runL (initExec v q.1) ans.sched q.2).bind fun h => .ok (⟨upd w.arr s (some ⟨n, n, q.1⟩), h⟩, [])
  | .copy s t => match w.arr t with
    | none => .error .lifetime
    | some o => (mallocate sz w.heap o.size ans).bind fun q =>
        (mdevToDev sz q.2 q.1 o.ptr (byteSize sz o.size)).bind fun h => .ok (⟨upd w.arr s (some ⟨o.size, o.size, q.1⟩), h⟩, [])
  | .host s l n => (mallocate sz w.heap n ans).bind fun q =>
      (mtoDevice sz q.2 q.1 (l.map some) (byteSize sz n)).bind fun h => .ok (⟨upd w.arr s (some ⟨n, n, q.1⟩), h⟩, [])
  | .vec s l => (mallocate sz w.heap l.length ans).bind fun q =>
      if l = [] then .error .oob
      else (mtoDevice sz q.2 q.1 (l.map some) (byteSize sz l.length)).bind fun h =>
        .ok (⟨upd w.arr s (some ⟨l.length, l.length, q.1⟩), h⟩, [])
  | .assign s t => match w.arr s, w.arr t with
    | some a, some o => (massignImpl sz w.heap a o (s == t) ans).bind fun q => .ok (⟨upd w.arr s (some q.1), q.2⟩, [])
    | _, _ => .error .lifetime
  | .resize s n => match w.arr s with
    | none => .error .lifetime
    | some a => (mresizeImpl sz w.heap a n none ans).bind fun q => .ok (⟨upd w.arr s (some q.1), q.2⟩, [])
  | .resizeFill s n v => match w.arr s with
    | none => .error .lifetime
    | some a => (mresizeImpl sz w.heap a n (some v) ans).bind fun q => .ok (⟨upd w.arr s (some q.1), q.2⟩, [])
  | .reserve s n => match w.arr s with
    | none => .error .lifetime
    | some a => (mreserveImpl sz w.heap a n ans).bind fun q => .ok (⟨upd w.arr s (some q.1), q.2⟩, [])
  | .load s l => match w.arr s with
    | none => .error .lifetime
    | some a => (mtoDevice sz w.heap a.ptr (l.map some) (byteSize sz a.size)).bind fun h => .ok (⟨w.arr, h⟩, [])
  | .save s => match w.arr s with
    | none => .error .lifetime
    | some a => (mfromDevice sz w.heap a.ptr (byteSize sz a.size)).bind fun l => .ok (w, l)
  | .del s => match w.arr s with
    | none => .error .lifetime
    | some a => (deallocate w.heap a.ptr).bind fun h => .ok (⟨upd w.arr s none, h⟩, [])

/-- A program. -/
def mrun : World V → List (Op V × Ans) → Except UB (World V × List (List (Option V)))
  | w, [] => .ok (w, [])
  | w, (op, ans) :: ops => (mstep sz w op ans).bind fun q => (mrun q.1 ops).map fun q' => (q'.1, q.2 :: q'.2)

/-- Answers of the environment for a program, see `AnsRun`. -/
def MAnsRun : World V → List (Op V × Ans) → Prop
  | _, [] => True
  | w, (op, ans) :: ops => AnsOK w op ans ∧ ∀ w' out, mstep sz w op ans = .ok (w', out) → MAnsRun w' ops

/-! ### Without overflow -/

/-- The number of elements an operation asks for. -/
def Op.request : Op V → Nat
  | .new _ n | .fill _ n _ | .host _ _ n | .resize _ n | .resizeFill _ n _ | .reserve _ n => n
  | .vec _ l => l.length
  | .copy _ _ | .assign _ _ | .load _ _ | .save _ | .del _ => 0

variable {sz}

/-- All arrays fit into the address space. -/
def Small (sz : Nat) (w : World V) : Prop := ∀ s x, w.arr s = some x → x.size * sz < 2 ^ 64

theorem byteSize_small (hsz : 0 < sz) {n : Nat} (h : n * sz < 2 ^ 64) : byteSize sz n = n * sz := Nat.mod_eq_of_lt h

theorem div_small (hsz : 0 < sz) (n : Nat) : n * sz / sz = n := Nat.mul_div_cancel n hsz

theorem mallocate_small (hsz : 0 < sz) {n : Nat} (h : n * sz < 2 ^ 64) (hp : Heap V) (ans : Ans) :
    mallocate sz hp n ans = allocate hp n ans := by
  rw [mallocate, byteSize_small hsz h, div_small hsz]

theorem mtoDevice_small (hsz : 0 < sz) {n : Nat} (h : n * sz < 2 ^ 64) (hp : Heap V) (dst : Nat) (src : List (Option V)) :
    mtoDevice sz hp dst src (byteSize sz n) = toDevice hp dst 0 src n := by
  rw [mtoDevice, byteSize_small hsz h, div_small hsz]
  simp only [Nat.mul_mod_left, if_true]
  cases toDevice hp dst 0 src n <;> rfl

theorem mfromDevice_small (hsz : 0 < sz) {n : Nat} (h : n * sz < 2 ^ 64) (hp : Heap V) (src : Nat) :
    mfromDevice sz hp src (byteSize sz n) = fromDevice hp src n := by
  rw [mfromDevice, byteSize_small hsz h, div_small hsz]
  simp only [Nat.mul_mod_left, if_true]
  cases fromDevice hp src n <;> rfl

theorem mdevToDev_small (hsz : 0 < sz) {n : Nat} (h : n * sz < 2 ^ 64) (hp : Heap V) (dst src : Nat) :
    mdevToDev sz hp dst src (byteSize sz n) = devToDev hp dst src n := by
  rw [mdevToDev, devToDev]
  simp only [mtoDevice_small hsz h]
  rw [byteSize_small hsz h, div_small hsz]

theorem mstep_small (hsz : 0 < sz) {w : World V} (hw : Small sz w) {op : Op V} (hop : op.request * sz < 2 ^ 64) (ans : Ans) :
    mstep sz w op ans = step w op ans := by
  cases op with
  | new s n =>
    have hop : n * sz < 2 ^ 64 := hop
    simp only [mstep, step, mallocate_small hsz hop]
  | fill s n v =>
    have hop : n * sz < 2 ^ 64 := hop
    simp only [mstep, step, mallocate_small hsz hop]
  | copy s t =>
    simp only [mstep, step]
    cases ht : w.arr t with
    | none => rfl
    | some o => simp only [mallocate_small hsz (hw t o ht), mdevToDev_small hsz (hw t o ht)]
  | host s l n =>
    have hop : n * sz < 2 ^ 64 := hop
    simp only [mstep, step, mallocate_small hsz hop, mtoDevice_small hsz hop]
  | vec s l =>
    have hop : l.length * sz < 2 ^ 64 := hop
    simp only [mstep, step, mallocate_small hsz hop, mtoDevice_small hsz hop]
  | assign s t =>
    simp only [mstep, step]
    cases hs : w.arr s with
    | none => rfl
    | some a =>
      cases ht : w.arr t with
      | none => rfl
      | some o =>
        simp only [massignImpl, assignImpl, mallocate_small hsz (hw t o ht), mdevToDev_small hsz (hw t o ht)]
  | resize s n =>
    have hop : n * sz < 2 ^ 64 := hop
    simp only [mstep, step]
    cases hs : w.arr s with
    | none => rfl
    | some a => simp only [mresizeImpl, resizeImpl, mallocate_small hsz hop, mdevToDev_small hsz (hw s a hs)]
  | resizeFill s n v =>
    have hop : n * sz < 2 ^ 64 := hop
    simp only [mstep, step]
    cases hs : w.arr s with
    | none => rfl
    | some a => simp only [mresizeImpl, resizeImpl, mallocate_small hsz hop, mdevToDev_small hsz (hw s a hs)]
  | reserve s n =>
    have hop : n * sz < 2 ^ 64 := hop
    simp only [mstep, step]
    cases hs : w.arr s with
    | none => rfl
    | some a => simp only [mreserveImpl, reserveImpl, mallocate_small hsz hop, mdevToDev_small hsz (hw s a hs)]
  | load s l =>
    simp only [mstep, step]
    cases hs : w.arr s with
    | none => rfl
    | some a => simp only [mtoDevice_small hsz (hw s a hs)]
  | save s =>
    simp only [mstep, step]
    cases hs : w.arr s with
    | none => rfl
    | some a => simp only [mfromDevice_small hsz (hw s a hs)]
  | del s => rfl

theorem small_upd {w : World V} (hw : Small sz w) {s : Nat} {x : Option Arr} {h : Heap V} (hx : ∀ y, x = some y → y.size * sz < 2 ^ 64) :
    Small sz ⟨upd w.arr s x, h⟩ := by
  intro t y hy
  by_cases e : t = s
  · subst e; simp only [upd_self] at hy; exact hx y hy
  · simp only [upd_ne _ _ e] at hy; exact hw t y hy

theorem bind_inv {α β : Type} {x : Except UB α} {f : α → Except UB β} {b : β} (h : x.bind f = .ok b) : ∃ a, x = .ok a ∧ f a = .ok b := by
  cases x with
  | error u => cases h
  | ok a => exact ⟨a, rfl, h⟩

theorem small_step (hsz : 0 < sz) {w w' : World V} (hw : Small sz w) {op : Op V} (hop : op.request * sz < 2 ^ 64) {ans : Ans}
    {out : List (Option V)} (h : step w op ans = .ok (w', out)) : Small sz w' := by
  cases op with
  | new s n =>
    obtain ⟨q, _, h⟩ := bind_inv h
    cases h
    exact small_upd hw (fun y e => by cases e; exact hop)
  | fill s n v =>
    obtain ⟨q, _, h⟩ := bind_inv h
    obtain ⟨q, _, h⟩ := bind_inv h
    cases h
    exact small_upd hw (fun y e => by cases e; exact hop)
  | copy s t =>
    simp only [step] at h
    cases ht : w.arr t with
    | none => rw [ht] at h; cases h
    | some o =>
      rw [ht] at h
      obtain ⟨q, _, h⟩ := bind_inv h
      obtain ⟨q, _, h⟩ := bind_inv h
      cases h
      exact small_upd hw (fun y e => by cases e; exact hw t o ht)
  | host s l n =>
    obtain ⟨q, _, h⟩ := bind_inv h
    obtain ⟨q, _, h⟩ := bind_inv h
    cases h
    exact small_upd hw (fun y e => by cases e; exact hop)
  | vec s l =>
    obtain ⟨q, _, h⟩ := bind_inv h
    split at h
    · cases h
    · obtain ⟨q, _, h⟩ := bind_inv h
      cases h
      exact small_upd hw (fun y e => by cases e; exact hop)
  | assign s t =>
    simp only [step] at h
    cases hs : w.arr s with
    | none => rw [hs] at h; cases h
    | some a =>
      cases ht : w.arr t with
      | none => rw [hs, ht] at h; cases h
      | some o =>
        rw [hs, ht] at h
        obtain ⟨q, hq, h⟩ := bind_inv h
        cases h
        obtain ⟨r, _, hr⟩ := bind_inv hq
        obtain ⟨r', _, hr⟩ := bind_inv hr
        cases hr
        exact small_upd hw (fun y e => by cases e; exact hw t o ht)
  | resize s n =>
    simp only [step] at h
    cases hs : w.arr s with
    | none => rw [hs] at h; cases h
    | some a =>
      rw [hs] at h
      obtain ⟨q, hq, h⟩ := bind_inv h
      cases h
      have : q.1.size = n := by
        unfold resizeImpl at hq
        split at hq
        · obtain ⟨r, _, hr⟩ := bind_inv hq; cases hr; rfl
        · obtain ⟨r, _, hr⟩ := bind_inv hq
          obtain ⟨r, _, hr⟩ := bind_inv hr
          obtain ⟨r, _, hr⟩ := bind_inv hr
          obtain ⟨r, _, hr⟩ := bind_inv hr
          cases hr; rfl
      exact small_upd hw (fun y e => by cases e; rw [this]; exact hop)
  | resizeFill s n v =>
    simp only [step] at h
    cases hs : w.arr s with
    | none => rw [hs] at h; cases h
    | some a =>
      rw [hs] at h
      obtain ⟨q, hq, h⟩ := bind_inv h
      cases h
      have : q.1.size = n := by
        unfold resizeImpl at hq
        split at hq
        · obtain ⟨r, _, hr⟩ := bind_inv hq; cases hr; rfl
        · obtain ⟨r, _, hr⟩ := bind_inv hq
          obtain ⟨r, _, hr⟩ := bind_inv hr
          obtain ⟨r, _, hr⟩ := bind_inv hr
          obtain ⟨r, _, hr⟩ := bind_inv hr
          cases hr; rfl
      exact small_upd hw (fun y e => by cases e; rw [this]; exact hop)
  | reserve s n =>
    simp only [step] at h
    cases hs : w.arr s with
    | none => rw [hs] at h; cases h
    | some a =>
      rw [hs] at h
      obtain ⟨q, hq, h⟩ := bind_inv h
      cases h
      have : q.1.size = a.size := by
        unfold reserveImpl at hq
        split at hq
        · cases hq; rfl
        · obtain ⟨r, _, hr⟩ := bind_inv hq
          obtain ⟨r, _, hr⟩ := bind_inv hr
          obtain ⟨r, _, hr⟩ := bind_inv hr
          cases hr; rfl
      exact small_upd hw (fun y e => by cases e; rw [this]; exact hw s a hs)
  | load s l =>
    simp only [step] at h
    cases hs : w.arr s with
    | none => rw [hs] at h; cases h
    | some a =>
      rw [hs] at h
      obtain ⟨q, hq, h⟩ := bind_inv h
      cases h
      exact hw
  | save s =>
    simp only [step] at h
    cases hs : w.arr s with
    | none => rw [hs] at h; cases h
    | some a =>
      rw [hs] at h
      obtain ⟨q, hq, h⟩ := bind_inv h
      cases h
      exact hw
  | del s =>
    simp only [step] at h
    cases hs : w.arr s with
    | none => rw [hs] at h; cases h
    | some a =>
      rw [hs] at h
      obtain ⟨q, hq, h⟩ := bind_inv h
      cases h
      exact small_upd hw (fun y e => by cases e)

theorem mrun_small (hsz : 0 < sz) : ∀ (prog : List (Op V × Ans)) {w : World V}, Small sz w →
    (∀ q ∈ prog, q.1.request * sz < 2 ^ 64) → mrun sz w prog = run w prog
  | [], _, _, _ => rfl
  | (op, ans) :: ops, w, hw, hp => by
    have hop := hp (op, ans) List.mem_cons_self
    rw [mrun, run, mstep_small hsz hw hop]
    cases h : step w op ans with
    | error u => rfl
    | ok q =>
      obtain ⟨w', out⟩ := q
      simp only [Except.bind]
      rw [mrun_small hsz ops (small_step hsz hw hop h) (fun q hq => hp q (List.mem_cons_of_mem _ hq))]

theorem ansRun_small (hsz : 0 < sz) : ∀ (prog : List (Op V × Ans)) {w : World V}, Small sz w →
    (∀ q ∈ prog, q.1.request * sz < 2 ^ 64) → MAnsRun sz w prog → AnsRun w prog
  | [], _, _, _, _ => trivial
  | (op, ans) :: ops, w, hw, hp, ha => by
    have hop := hp (op, ans) List.mem_cons_self
    refine ⟨ha.1, fun w' out h => ?_⟩
    refine ansRun_small hsz ops (small_step hsz hw hop h) (fun q hq => hp q (List.mem_cons_of_mem _ hq)) (ha.2 w' out ?_)
    rw [mstep_small hsz hw hop]; exact h

theorem small_init : Small sz (World.init : World V) := fun _ _ h => nomatch h

end LFA.CA
