import Verif.MachArrProof
import Verif.Props.SoaArray

/-
  C81: programs over soa_array which respect the contracts of their operations neither overflow nor wrap on a 64-bit machine whose
  `int` has 32 bits, and compute there what they compute with unbounded integers.
-/
set_option linter.unusedSectionVars false
namespace LFA.Props
open Mach

section
variable {V : Type} [DecidableEq V] {L : Layout V}

omit [DecidableEq V] in
theorem spec_pos {σ σ' : ArrSpec.State V} {op : ArrOp V} {out : ArrOut V} (h : ArrSpec.step L σ op = some (σ', out))
    (hp : Pos σ) (hf : FitsA op) : Pos σ' := by
  cases op with
  | new s N n v =>
    simp only [ArrSpec.step] at h
    repeat' split at h
    all_goals first | cases h; done | (injection h with h; injection h with h1 h2; subst h1; exact hp.upd s hf _)
  | copy s N t cst =>
    simp only [ArrSpec.step] at h
    repeat' split at h
    all_goals first | cases h; done | (injection h with h; injection h with h1 h2; subst h1; first | exact hp.upd s hf _ | exact hp)
  | load s t j num off =>
    simp only [ArrSpec.step] at h
    split at h
    · rename_i N l M l' hs ht
      split at h
      · obtain ⟨p, -, e⟩ := Option.map_eq_some_iff.1 h
        injection e with h1 h2; subst h1; exact hp.upd s (hp _ _ _ hs) _
      · cases h
    · cases h
  | append s t j num =>
    simp only [ArrSpec.step] at h
    split at h
    · rename_i N l M l' hs ht
      obtain ⟨p, -, e⟩ := Option.map_eq_some_iff.1 h
      injection e with h1 h2; subst h1; exact hp.upd s (hp _ _ _ hs) _
    · cases h
  | swap s t =>
    simp only [ArrSpec.step] at h
    split at h
    · rename_i N l M l' hs ht
      split at h
      · injection h with h; injection h with h1 h2; subst h1
        exact (hp.upd s (hp _ _ _ hs) _).upd t (hp _ _ _ ht) _
      · cases h
    · cases h
  | _ =>
    simp only [ArrSpec.step] at h
    repeat' split at h
    all_goals first
      | cases h; done
      | (injection h with h; injection h with h1 h2; subst h1
         first | exact hp | exact hp.rm _ | exact hp.upd _ (hp _ _ _ (by assumption)) _)

theorem mach_arr_run (hL : L.WF) (hagg : aggSize L ≤ 2 ^ 31) (dv : V) :
    ∀ (ops : List (ArrOp V)) {w : ArrWorld V} {σ σ' : ArrSpec.State V} {outs : List (ArrOut V)}, ArrR L w σ → Pos σ →
      ArrSpec.run L σ ops = some (σ', outs) → (∀ op ∈ ops, FitsA op) → Mach.arrRun L w ops = w.run L ops
  | [], _, _, _, _, _, _, _, _ => rfl
  | op :: ops, w, σ, σ', outs, hR, hp, hs, hfit => by
    simp only [ArrSpec.run] at hs
    cases h2 : ArrSpec.step L σ op with
    | none => rw [h2] at hs; cases hs
    | some p =>
      obtain ⟨σ1, out⟩ := p
      rw [h2] at hs
      simp only at hs
      cases h3 : ArrSpec.run L σ1 ops with
      | none => rw [h3] at hs; cases hs
      | some q =>
        obtain ⟨w1, k1, k2⟩ := arr_step_refines hL dv hR h2
        have k3 := arrStep_eq hL hagg dv hR hp op h2 (hfit op (List.mem_cons_self ..))
        simp only [Mach.arrRun, ArrWorld.run, k3, k1]
        rw [mach_arr_run hL hagg dv ops k2 (spec_pos h2 hp (hfit op (List.mem_cons_self ..))) (σ' := q.1) (outs := q.2) h3
          (fun o ho => hfit o (List.mem_cons_of_mem _ ho))]
        rfl

/-- **C81** (structs have at most 2^31 bytes, capacities are positive `int`s): a program over any number of arrays which respects
the contracts runs through on the machine, i.e. nothing overflows, wraps, is truncated to `int` or leaves a buffer; its results
are those of bounded lists; and it reaches the very state which unbounded integers reach. -/
theorem C81_run (dv : V) (hL : L.WF) (hagg : aggSize L ≤ 2 ^ 31) (ops : List (ArrOp V)) {σ : ArrSpec.State V}
    {outs : List (ArrOut V)} (hs : ArrSpec.run L ArrSpec.start ops = some (σ, outs))
    (hpos : ∀ op ∈ ops, ∀ s N n v t cst, op = .new s N n v ∨ op = .copy s N t cst → 0 < N) :
    ∃ w, Mach.arrRun L ArrWorld.init ops = .ok (w, outs) ∧ ArrWorld.init.run L ops = .ok (w, outs) := by
  obtain ⟨w, k1, -⟩ := arr_run_refines hL dv ops (ArrR.init L) hs
  refine ⟨w, ?_, k1⟩
  rw [mach_arr_run hL hagg dv ops (ArrR.init L) (fun _ _ _ h => by cases h) hs (fun op ho => ?_)]
  · exact k1
  · cases op with
    | new s N n v => exact hpos _ ho s N n v 0 false (.inl rfl)
    | copy s N t cst => exact hpos _ ho s N 0 (fun _ _ => dv) t cst (.inr rfl)
    | _ => trivial

theorem chk_none {α β : Type} {o : Option α} (h : o = none) (f : α → Except UB β) : chk o f = .error overflow := by
  rw [h]; rfl

theorem thenRes_error {α σ β : Type} {x : Except UB α} {u : UB} (h : x = .error u) (f : α → Res σ β) : thenRes x f = .ub u := by
  rw [h]; rfl

theorem withA_some {w : ArrWorld V} {s : Nat} {a : SArr V} (ha : w.a s = some a)
    (f : SArr V → Except UB (ArrWorld V × ArrOut V)) : w.withA s f = f a := by
  unfold ArrWorld.withA; rw [ha]

theorem size_pred_none {n : Nat} (h : n = 0) : Mach.size ((n : Int) - 1) = none := if_neg fun c => by have := c.1; omega

/-- **C81 needs the contract of `back`**: on an empty array `elements - 1` wraps. -/
theorem C81_needs_element (w : ArrWorld V) (s : Nat) (a : SArr V) (t : Cell V) (hs : w.a s = some a) (h0 : a.n = 0) :
    Mach.arrStep L w (.back s t) = .error .oob := by
  have h2 : arrBack L a t = .error overflow := by
    unfold arrBack
    rw [chk_none (size_pred_none h0)]
  have h3 : w.ro (fun c => .cells [c]) (arrBack L a t) = .error .oob := by rw [h2]; rfl
  exact (withA_some hs _).trans h3

theorem size_none {n : Nat} (h : 2 ^ 64 ≤ n) : Mach.size (n : Int) = none := if_neg fun c => by have := c.2; omega

/-- **C81 needs the contract of `load`**: `num + offset` wraps, whatever the arrays hold (C24). -/
theorem C81_needs_sum (w : ArrWorld V) (s t j num off : Nat) (a o : SArr V) (hs : w.a s = some a) (ht : w.a t = some o)
    (h : 2 ^ 64 ≤ num + off) : Mach.arrStep L w (.load s t j num off) = .error .oob := by
  have h1 : arrLoadEnd num off = .error overflow := by
    unfold arrLoadEnd
    rw [← Nat.cast_add, chk_none (size_none h)]
  have h2 : arrLoad L a o.N o.data.size (ArrWorld.srcOf s t o) j num off = .ub overflow := by
    unfold arrLoad
    exact thenRes_error h1 _
  have h3 : w.modify s (arrLoad L a o.N o.data.size (ArrWorld.srcOf s t o) j num off) = .error .oob := by rw [h2]; rfl
  exact (withA_some hs _).trans ((withA_some ht _).trans h3)

/-- **C81 needs element counts which are `int`s**: `soa_array(elements, value)` converts the count. -/
theorem C81_needs_int (dv : V) (hL : L.WF) (hagg : aggSize L ≤ 2 ^ 31) (w : ArrWorld V) (s N n : Nat) (v : Cell V)
    (hs : w.a s = none) (h0 : 0 < N) (h1 : N < 2 ^ 31) (h : 2 ^ 31 ≤ n) : Mach.arrStep L w (.new s N n v) = .error .oob := by
  have h3 : int32 (n : Int) = none := if_neg fun c => by have := c.2; omega
  have h2 : arrNew L N n v = .error overflow := by
    unfold arrNew
    obtain ⟨b, k1, -, -⟩ := SArr.constructAll_ok hL dv N
    rw [arrConstructAll_eq hL hagg h0 h1, k1, ebind, chk_none h3]
  rw [arrStep_new hs, h2]
  rfl

/-- **C81 needs small structs**: the size of the storage wraps, where unbounded integers construct the array. -/
theorem C81_needs_small (dv : V) (hL : L.WF) (w : ArrWorld V) (s N n : Nat) (v : Cell V) (hs : w.a s = none) (hn : n ≤ N)
    (h1 : N < 2 ^ 31) (h : 2 ^ 64 ≤ aggSize L * N) :
    (∃ w', w.step L (.new s N n v) = .ok (w', .unit)) ∧ Mach.arrStep L w (.new s N n v) = .error .oob := by
  constructor
  · obtain ⟨b, k1, k2, k3⟩ := SArr.constructAll_ok hL dv N
    obtain ⟨b', k4, -, -⟩ := SArr.fill_ok hL hn k3 v
    have h2 : SArr.new L N n v = .ok ⟨N, n, b'⟩ := by
      have e : (toInt32 n).toNat = n := by rw [toInt32_small (by omega), Int.toNat_natCast]
      unfold SArr.new
      rw [k1, ebind, e, k4]
      rfl
    exact ⟨_, by rw [step_new hs, h2]; rfl⟩
  · have h2 : arrConstructAll L N = .error overflow := by
      unfold arrConstructAll arrBytes
      rw [← Nat.cast_mul, chk_none (size_none h)]
    have h3 : arrNew L N n v = .error overflow := by
      unfold arrNew
      rw [h2]
      rfl
    rw [arrStep_new hs, h3]
    rfl

end

/-! ### Concrete cases -/

/-- Instance of `C81_run`. -/
example : ∃ w outs, Mach.arrRun demoL ArrWorld.init demoArr = .ok (w, outs)
    ∧ ArrWorld.init.run demoL demoArr = .ok (w, outs) := by
  obtain ⟨σ, outs, h⟩ := demoArr_spec
  obtain ⟨w, h⟩ := C81_run 0 demoL_WF (by decide) demoArr h (by
    intro op ho s N n v t cst e
    simp only [demoArr, List.mem_cons, List.not_mem_nil, or_false] at ho
    rcases e with rfl | rfl
    · simp at ho; omega
    · simp at ho)
  exact ⟨w, outs, h⟩

/-- Instance of `C81_needs_int`. -/
example : Mach.arrStep demoL (ArrWorld.init (V := Int)) (.new 0 8 (2 ^ 32) demoCell) = .error .oob :=
  C81_needs_int 0 demoL_WF (by decide) _ 0 8 _ _ rfl (by omega) (by omega) (by omega)

/-- A struct with one member of 2^60 bytes. -/
def giantL : Layout Int := [⟨⟨2 ^ 60, true⟩, none, 0⟩]

/-- Instance of `C81_needs_small`. -/
example : (∃ w', (ArrWorld.init (V := Int)).step giantL (.new 0 16 3 demoCell) = .ok (w', .unit))
    ∧ Mach.arrStep giantL (ArrWorld.init (V := Int)) (.new 0 16 3 demoCell) = .error .oob :=
  C81_needs_small 0 (by intro m hm; simp [giantL] at hm; subst hm; decide) _ 0 16 3 _ rfl (by omega) (by omega) (by decide)

end LFA.Props
