/-
  Outcomes, loops and byte-level memory shared by all models.

  These definitions model the C++ abstract machine (not a particular file of /repo):
  buffers of bytes, typed objects living in them, and the outcomes "normal", "exception" and
  "undefined behaviour".
-/
namespace LFA

/-- The kinds of undefined behaviour the model distinguishes (C++ abstract machine, not a /repo definition). -/
inductive UB where
  | oob          -- access outside of a buffer (this includes access through null)
  | indet        -- read of an object without a determinate value
  | lifetime     -- non-trivial object used/constructed/destroyed outside/inside its lifetime
  | dangling     -- use of a freed buffer, or freeing it again
  | badFree      -- deallocation with a size different from the allocated one
  | uninitField  -- read of a member variable which was never set
  | terminate    -- exception leaving a destructor (std::terminate, not UB proper, but equally fatal)
deriving DecidableEq, Repr

/-- The C++ exceptions thrown by the library; the text is the argument of the exception. -/
inductive Exc where
  | outOfRange (msg : String)
  | invalidArgument (msg : String)
  | logicError (msg : String)
deriving DecidableEq, Repr

/-- Outcome of a C++ function which may throw: the state survives an exception, but not UB. -/
inductive Res (σ α : Type _) where
  | ok (a : α) (s : σ)
  | throw (e : Exc) (s : σ)
  | ub (u : UB)

/-- Sequencing for `Res`: exceptions and UB propagate. -/
def Res.bind {σ α β : Type _} (r : Res σ α) (f : α → σ → Res σ β) : Res σ β :=
  match r with
  | .ok a s => f a s
  | .throw e s => .throw e s
  | .ub u => .ub u

/-- Lift a computation that can only fail with UB. -/
def Res.ofExcept {σ : Type _} (r : Except UB σ) : Res σ Unit :=
  match r with
  | .ok s => .ok () s
  | .error u => .ub u

/-- `for (std::size_t i = 0; i < n; ++i) s = f(i, s);` where the body may run into UB. -/
def loopM {σ : Type _} : Nat → (Nat → σ → Except UB σ) → σ → Except UB σ
  | 0, _, s => .ok s
  | n + 1, f, s => (loopM n f s).bind (f n)

theorem loopM_zero {σ} (f : Nat → σ → Except UB σ) (s : σ) : loopM 0 f s = .ok s := rfl

theorem loopM_succ {σ} (n : Nat) (f : Nat → σ → Except UB σ) (s : σ) :
    loopM (n + 1) f s = (loopM n f s).bind (f n) := rfl

/-- Loop invariant rule: a loop whose body is safe and preserves the invariant is safe. -/
theorem loopM_inv {σ} (I : Nat → σ → Prop) (n : Nat) (f : Nat → σ → Except UB σ) (s : σ)
    (h0 : I 0 s)
    (hs : ∀ j, j < n → ∀ s, I j s → ∃ s', f j s = .ok s' ∧ I (j + 1) s') :
    ∃ s', loopM n f s = .ok s' ∧ I n s' := by
  induction n with
  | zero => exact ⟨s, rfl, h0⟩
  | succ n ih =>
    obtain ⟨s1, h1, i1⟩ := ih (fun j hj => hs j (by omega))
    obtain ⟨s2, h2, i2⟩ := hs n (by omega) s1 i1
    refine ⟨s2, ?_, i2⟩
    rw [loopM_succ, h1]; exact h2

theorem loopM_congr {σ} (n : Nat) (f g : Nat → σ → Except UB σ) (s : σ)
    (h : ∀ j, j < n → ∀ s, f j s = g j s) : loopM n f s = loopM n g s := by
  induction n with
  | zero => rfl
  | succ n ih =>
    rw [loopM_succ, loopM_succ, ih (fun j hj => h j (by omega))]
    cases loopM n g s with
    | error u => rfl
    | ok s' => exact h n (by omega) s'

end LFA
