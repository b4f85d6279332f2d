import Verif.PairKernel
import Verif.SoaArray

/-
  Interactions which are collected in a soa_array and then processed by vectors: compute_accel_lfa and handle_interactions
  (examples/smoothed_particle_hydrodynamics/kernels.hpp:125-241).
-/
set_option linter.unusedSectionVars false
namespace LFA.GK
open SV (Expr Entry FEnv FOps Mem Writes Cmp Rel)

variable {V : Type} [DecidableEq V] {w : Nat}

/-- An argument of the constructor `InteractionBuffer(…)` (kernels.hpp:215-229): a member of one of the particles, a lane of one of the
    vectors, or the index of a particle. -/
inductive Field where
  | mem (s : Src)
  | val (k : Nat)
  | index (own : Bool)

/-- The struct which is collected and what is computed from it. `L`: registered members, which are scalars; `base`: address of the
    soa_array on the stack; `ints`: values of type `int`; `fields`: arguments of the constructor, in the order of members; `code`: what is
    computed by vectors (`add_x` and `add_y` in kernels.hpp:131-141), variables are members; `i`, `j`: the members which hold indices;
    `us`: what is done to the particles with those indices (kernels.hpp:144-149). -/
structure Buffer (w : Nat) (V : Type) where
  L : Layout V
  base : Nat
  ints : Bits 32 V
  fields : List Field
  code : List (Expr w)
  (i j : Nat)
  us : List (Upd w)

/-- `&interaction_buf[f].member()` (kernels.hpp:130-141), counted in elements. `f` is converted to `int`. -/
def Buffer.elem (U : Buffer w V) (N f r : Nat) (m : Member V) : Option Int :=
  let p := U.base + (SArr.acc N (toInt32 f)).userRef U.L r m 0
  if m.ty.size = w / 8 ∧ ((w / 8 : Nat) : Int) ∣ p then some (p / (w / 8 : Nat)) else none

/-- `FLOAT(&interaction_buf[f].member())` (kernels.hpp:130-141). -/
def Buffer.load (T : Env w V) (U : Buffer w V) (e : Entry w) (a : SArr V) (f r : Nat) : Option e.impl.V :=
  match U.L[r]? with
  | none => none
  | some m => (U.elem a.N f r m).bind (Mode.plain.load e.impl T.E (view T.B m.ty U.base a.data))

/-- `interaction_buf[f].i()` (kernels.hpp:146-149). -/
def Buffer.index (U : Buffer w V) (a : SArr V) (f r : Nat) : Option Int :=
  match U.L[r]? with
  | none => none
  | some m =>
    match a.data.read ((SArr.acc a.N (toInt32 f)).userRef U.L r m 0) m.ty with
    | .ok v => (U.ints.bits v).map BitVec.toInt
    | .error _ => none

/-- `for (i = 0; i < FLOAT::ARITY; ++i) …` (kernels.hpp:143-150): `n` lanes from lane `l`. `&particles.a_x()` is a pointer to the first
    particle's member, which is indexed by the particle. Simplification: indices are read once per lane. -/
def Buffer.lanes (T : Env w V) (F : FOps w) (U : Buffer w V) (A : One) {I : SV.Impl w} (D : Cmp I) (a : SArr V) (f : Nat) (vs : List I.V) :
    Nat → Nat → Heap V → Option (Heap V)
  | 0, _, h => some h
  | n + 1, l, h => (vs.mapM fun v => D.index T.E v (BitVec.ofNat 32 l)).bind fun ys =>
      (U.index a (f + l) U.i).bind fun i => (U.index a (f + l) U.j).bind fun j =>
        (execAll T F A U.us i j ys (h, ())).bind fun s => Buffer.lanes T F U A D a f vs n (l + 1) s.1

/-- The body of the loop in handle_interactions (kernels.hpp:130-150). -/
def Buffer.body (T : Env w V) (F : FOps w) (U : Buffer w V) (A : One) (e : Entry w) (a : SArr V) (f : Nat) (h : Heap V) : Option (Heap V) :=
  (U.code.mapM fun (ex : Expr w) => ex.vec e.impl e.cmp T.E (U.load T e a f)).bind fun vs =>
    e.cmp.bind fun D => U.lanes T F A D a f vs e.impl.N 0 h

/-- `for (f = 0; f < interaction_buf.size(); f += FLOAT::ARITY)` (kernels.hpp:129). The loop ends after at most `size()` iterations. -/
def Buffer.loop (T : Env w V) (F : FOps w) (U : Buffer w V) (A : One) (e : Entry w) (a : SArr V) : Nat → Nat → Heap V → Option (Heap V)
  | 0, f, h => if f < a.n then none else some h
  | k + 1, f, h => if f < a.n then (U.body T F A e a f h).bind (Buffer.loop T F U A e a k (f + e.impl.N)) else some h

/-- `handle_interactions<ARITY>(particles, interaction_buf, …)` (kernels.hpp:125-152), which clears the buffer (soa_array.hpp:198-203). -/
def Buffer.handle (T : Env w V) (F : FOps w) (U : Buffer w V) (A : One) (e : Entry w) (s : Heap V × SArr V) : Option (Heap V × SArr V) :=
  (U.loop T F A e s.2 s.2.n 0 s.1).map fun h => (h, ⟨s.2.N, 0, s.2.data⟩)

/-- An argument of the constructor. The index, a `long`, is converted to `int`. -/
def Field.get (T : Env w V) (U : Buffer w V) (A : One) (i j : Int) (ys : List (BitVec w)) (h : Heap V) : Field → Option V
  | .mem s => (fetch T A h (if s.own then i else j) s.r s.k).map T.B.val
  | .val k => (ys[k]?).map T.B.val
  | .index own => some (U.ints.val (BitVec.ofInt 32 (if own then i else j)))

/-- `interaction_buf << InteractionBuffer(…)`, then `handle_interactions` if the buffer is full (kernels.hpp:215-234; the test whether it
    is full is done for lanes without interaction too, where it cannot be). -/
def Buffer.collect (T : Env w V) (F : FOps w) (U : Buffer w V) (A : One) (e : Entry w) : Act w V (SArr V) := fun i j ys s =>
  (U.fields.mapM (Field.get T U A i j ys s.1)).bind fun vs =>
    match SArr.push U.L s.2 fun r _ => vs.getD r (T.B.val 0) with
    | .ok _ a => if a.n = a.N then U.handle T F A e (s.1, a) else some (s.1, a)
    | _ => none

/-- compute_accel_lfa from the definition of the buffer on (kernels.hpp:184-240). The buffer's capacity is the arity. `c0`: the
    value-initialised struct. -/
def Buffer.functor (T : Env w V) (F : FOps w) (K : Pairs w) (U : Buffer w V) (c0 : Cell V) (t : Counters) (e1 e : Entry w) (n : Nat) (A : One)
    (h : Heap V) : Option (Heap V) :=
  match SArr.new U.L e.impl.N 0 c0 with
  | .error _ => none
  | .ok a =>
    (K.search T F A (U.collect T F A e) t e1 e n (h, a)).bind fun p =>
      (U.handle T F A e1 p).bind fun p =>
        match SArr.dtor U.L p.2 with
        | .error _ => none
        | .ok _ => some p.1

/-- The same, run by `callback`. -/
def buffered (C : Cfg V) (B : Bits w V) (base : Nat → Nat) (E : FEnv) (F : FOps w) (K : Pairs w) (U : Buffer w V) (c0 : Cell V) (t : Counters)
    (e1 e : Entry w) (n : Nat) (W : World V) (s : Nat) : Except UB (World V × Out V) :=
  runFunctor C (U.functor ⟨C.L, B, base, E⟩ F K c0 t e1 e n) W s

end LFA.GK
