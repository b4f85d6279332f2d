import Verif.SoaVectorRefine

/-
  soa_vector as a list: programs which create vectors, modify them and read them, without copying.
-/
set_option linter.unusedSectionVars false
set_option linter.unusedVariables false
namespace LFA

/-- Every extent is at least five and exactly representable as a double, so that growth by 20% is growth. -/
def Roomy (tr : Traits) : Prop := ∀ n e, selectSizes tr ⟨n, 1, 1⟩ = .ok e → 5 ≤ e.x ∧ e.x < 2 ^ 53

theorem firstFit_mem {n s : Nat} {l : List Nat} (h : firstFit n l = some s) : s ∈ l := by
  induction l with
  | nil => cases h
  | cons a l ih =>
    simp only [firstFit] at h
    split at h
    · cases h; simp
    · simp [ih h]

theorem selectDflt1 (n : Nat) : selectSizes .dflt ⟨n, 1, 1⟩ = match firstFit n sizes1D with
    | none => .error (.outOfRange "max grid dimension too large")
    | some s => .ok ⟨s, 1, 1⟩ := by
  simp [selectSizes, selectUniform1]
  cases firstFit n sizes1D <;> rfl

theorem Roomy.uniform1 {l : List Nat} (h : ∀ s ∈ l, 5 ≤ s ∧ s < 2 ^ 53) : Roomy (.uniform1 l) := by
  intro n e he
  simp only [selectSizes, selectUniform1] at he
  cases hf : firstFit n l with
  | none => simp [hf] at he
  | some s => simp [hf] at he; cases he; exact h s (firstFit_mem hf)

theorem Roomy.dflt : Roomy .dflt := by
  intro n e he
  rw [selectDflt1] at he
  cases hf : firstFit n sizes1D with
  | none => rw [hf] at he; cases he
  | some s =>
    rw [hf] at he; cases he
    have hm := firstFit_mem hf
    simp only [sizes1D, List.mem_cons, List.not_mem_nil, or_false] at hm
    show 5 ≤ s ∧ s < 2 ^ 53
    omega

theorem firstFit_between {n m s : Nat} {l : List Nat} (h : firstFit n l = some s) (h1 : n ≤ m) (h2 : m ≤ s) :
    firstFit m l = some s := by
  induction l with
  | nil => cases h
  | cons a l ih =>
    simp only [firstFit] at h ⊢
    split at h
    · cases h; rw [if_pos h2]
    · rw [if_neg (by omega)]; exact ih h

/-- All dimensions between a dimension and its extent have the same extent. -/
theorem OneD.between {tr : Traits} (h1 : OneD tr) {n m : Nat} {e : Ext} (h : selectSizes tr ⟨n, 1, 1⟩ = .ok e) (hn : n ≤ m)
    (hm : m ≤ e.x) : selectSizes tr ⟨m, 1, 1⟩ = .ok e := by
  obtain ⟨hy, hz⟩ := h1 n e h
  obtain ⟨ex, ey, ez⟩ := e
  simp only at hy hz hm
  subst hy hz
  cases tr with
  | dflt =>
    rw [selectDflt1] at h ⊢
    cases hf : firstFit n sizes1D with
    | none => simp [hf] at h
    | some s => simp [hf] at h; subst h; rw [firstFit_between hf hn hm]
  | custom xs ys zs =>
    simp only [selectSizes, selectCustom] at h ⊢
    cases hf : firstFit n xs with
    | none => simp [hf] at h
    | some s =>
      cases hf2 : firstFit 1 ys with
      | none => simp [hf, hf2] at h
      | some s2 =>
        cases hf3 : firstFit 1 zs with
        | none => simp [hf, hf2, hf3] at h
        | some s3 =>
          simp [hf, hf2, hf3] at h
          obtain ⟨rfl, rfl, rfl⟩ := h
          simp [firstFit_between hf hn hm]
  | uniform1 l =>
    simp only [selectSizes, selectUniform1] at h ⊢
    simp at h ⊢
    cases hf : firstFit n l with
    | none => simp [hf] at h
    | some s => simp [hf] at h; subst h; rw [firstFit_between hf hn hm]
  | uniform2 l =>
    simp only [selectSizes, selectUniform2] at h ⊢
    simp at h ⊢
    cases hf : firstFit (max n 1) l with
    | none => simp [hf] at h
    | some s =>
      simp [hf] at h; obtain ⟨rfl, rfl⟩ := h
      rw [firstFit_between hf (by omega) (by omega)]
  | uniform3 l =>
    simp only [selectSizes, selectUniform3] at h ⊢
    rw [show max n (max 1 1) = max n 1 from rfl] at h
    cases hf : firstFit (max n 1) l with
    | none => simp [hf] at h
    | some s =>
      simp [hf] at h; obtain ⟨rfl, rfl⟩ := h
      rw [show max m (max 1 1) = max m 1 from rfl, firstFit_between hf (by omega) (by omega)]

namespace VecList
variable {V : Type} (C : Cfg V) (dv : V)
open World (upd)

/-- A list per variable. -/
abbrev State (V : Type) := Nat → Option (List (Cell V))

/-- No vectors. -/
def start : State V := fun _ => none

/-- Contracts: variables exist, indices are in range, `pop_back` needs an element, `reserve` gets room for all elements.
    Vectors of structs with non-trivial members have to be created with one of the sizes of the size table. -/
def Pre (σ : State V) : VecOp V → Prop
  | .new s n => σ s = none ∧ (ArrSpec.trivial C.L = true ∨ selectSizes C.tr ⟨n, 1, 1⟩ = .ok ⟨n, 1, 1⟩)
  | .newFill s n _ => σ s = none ∧ (ArrSpec.trivial C.L = true ∨ selectSizes C.tr ⟨n, 1, 1⟩ = .ok ⟨n, 1, 1⟩)
  | .destroy s => ∃ l, σ s = some l
  | .set s i _ => ∃ l, σ s = some l ∧ i < l.length
  | .get s i _ => ∃ l, σ s = some l ∧ i < l.length
  | .push s _ => ∃ l, σ s = some l
  | .pop s _ => ∃ l, σ s = some l ∧ l ≠ []
  | .clear s => ∃ l, σ s = some l
  | .resize s _ => ∃ l, σ s = some l
  | .reserve s m => ∃ l, σ s = some l ∧ ∀ e, selectSizes C.tr ⟨m, 1, 1⟩ = .ok e → l.length ≤ e.x
  | .size s => ∃ l, σ s = some l
  | .empty s => ∃ l, σ s = some l
  | .poke s x X r k _ => ∃ l m, σ s = some l ∧ C.L[r]? = some m ∧ k < m.elems ∧ 0 ≤ x + X ∧ x + X < l.length
  | .peek s x X r k => ∃ l m, σ s = some l ∧ C.L[r]? = some m ∧ k < m.elems ∧ 0 ≤ x + X ∧ x + X < l.length
  | .capacity _ => False
  | .copy _ _ => False
  | .assign _ _ => False

/-- Either a buffer for `n` elements cannot be had, and nothing happens except for the exception, or the effect is `ok`. -/
def Alloc (n : Nat) (σ σ' : State V) (out : ArrOut V) (ok : Prop) : Prop :=
  match selectSizes C.tr ⟨n, 1, 1⟩ with
  | .error e => out = .threw e ∧ σ' = σ
  | .ok _ => out = .unit ∧ ok

/-- Effects and results. `push_back` may throw only if the size is one of the table, and the growth by
    20% exceeds the largest one; `resize` to more elements keeps
    all elements, but the values of the additional ones are not specified. -/
def Post (σ : State V) : VecOp V → State V → ArrOut V → Prop
  | .new s n, σ', out => Alloc C n σ σ' out (σ' = upd σ s (some (List.replicate n (dfltCell C.L dv))))
  | .newFill s n c, σ', out => Alloc C n σ σ' out (σ' = upd σ s (some (List.replicate n c)))
  | .destroy s, σ', out => out = .unit ∧ σ' = upd σ s none
  | .set s i c, σ', out => ∃ l, σ s = some l ∧ out = .unit ∧ σ' = upd σ s (some (l.set i c))
  | .get s i t, σ', out => ∃ l c, σ s = some l ∧ l[i]? = some c ∧ out = .cells [overlay C.L c t] ∧ σ' = σ
  | .push s c, σ', out => ∃ l, σ s = some l ∧
      ((out = .unit ∧ σ' = upd σ s (some (l ++ [c]))) ∨
       (∃ e, selectSizes C.tr ⟨l.length, 1, 1⟩ = .ok ⟨l.length, 1, 1⟩ ∧ selectSizes C.tr ⟨grow l.length, 1, 1⟩ = .error e ∧
         out = .threw e ∧ σ' = σ))
  | .pop s _, σ', out => ∃ l, σ s = some l ∧ out = .unit ∧ σ' = upd σ s (some l.dropLast)
  | .clear s, σ', out => out = .unit ∧ σ' = upd σ s (some [])
  | .resize s m, σ', out => ∃ l, σ s = some l ∧
      ((∃ l', out = .unit ∧ σ' = upd σ s (some l') ∧ l'.length = m ∧ l'.take l.length = l.take m) ∨
       (∃ e, l.length < m ∧ selectSizes C.tr ⟨m, 1, 1⟩ = .error e ∧ out = .threw e ∧ σ' = σ))
  | .reserve s m, σ', out => Alloc C m σ σ' out (σ' = σ)
  | .size s, σ', out => ∃ l, σ s = some l ∧ out = .nat l.length ∧ σ' = σ
  | .empty s, σ', out => ∃ l, σ s = some l ∧ out = .nat (if l = [] then 1 else 0) ∧ σ' = σ
  | .poke s x X r k v, σ', out => ∃ l c, σ s = some l ∧ l[(x + X).toNat]? = some c ∧ out = .unit ∧
      σ' = upd σ s (some (l.set (x + X).toNat (c.set r k v)))
  | .peek s x X r k, σ', out => ∃ l c, σ s = some l ∧ l[(x + X).toNat]? = some c ∧ out = .val (c r k) ∧ σ' = σ
  | .capacity _, _, _ => False
  | .copy _ _, _, _ => False
  | .assign _ _, _, _ => False

/-- What a program may observe. -/
def Run : State V → List (VecOp V) → List (ArrOut V) → State V → Prop
  | σ, [], outs, σ' => outs = [] ∧ σ' = σ
  | σ, op :: ops, outs, σ' => ∃ out outs' σ1, outs = out :: outs' ∧ Post C dv σ op σ1 out ∧ Run σ1 ops outs' σ'

/-- All operations of a program respect their contracts, whatever the specification lets happen. -/
def Legal : State V → List (VecOp V) → Prop
  | _, [] => True
  | σ, op :: ops => Pre C σ op ∧ ∀ σ' out, Post C dv σ op σ' out → Legal σ' ops

end VecList

section
variable {V : Type} [DecidableEq V] {C : Cfg V}
open World (upd)

/-- A vector which represents a list. -/
structure Lists (C : Cfg V) (a : AVec V) (l : List (Cell V)) : Prop where
  known : a.known = true
  len : a.n = l.length
  fit : a.n ≤ a.ext
  cells : ∀ i, i < l.length → a.cells i = l[i]?
  roomy : 5 ≤ a.ext ∧ a.ext < 2 ^ 53
  writable : ∀ i, i < a.ext → VecSpec.Writable C.L a i

/-- All vectors represent lists. -/
def VL (C : Cfg V) (τ : VecSpec.State V) (σ : VecList.State V) : Prop :=
  ∀ s, match σ s with
    | none => τ s = none
    | some l => ∃ a, τ s = some a ∧ Lists C a l

theorem VL.vec {τ : VecSpec.State V} {σ : VecList.State V} (h : VL C τ σ) {s : Nat} {l : List (Cell V)} (hs : σ s = some l) :
    ∃ a, τ s = some a ∧ Lists C a l := by
  have := h s; rw [hs] at this; exact this

theorem VL.absent {τ : VecSpec.State V} {σ : VecList.State V} (h : VL C τ σ) {s : Nat} (hs : σ s = none) : τ s = none := by
  have := h s; rw [hs] at this; exact this

theorem VL.upd {τ : VecSpec.State V} {σ : VecList.State V} (h : VL C τ σ) {s : Nat} {a : AVec V} {l : List (Cell V)}
    (ha : Lists C a l) : VL C (upd τ s (some a)) (upd σ s (some l)) := by
  intro t
  by_cases ht : t = s
  · subst ht; simp only [upd_self]; exact ⟨a, rfl, ha⟩
  · simp only [upd_ne _ _ ht]; exact h t

theorem VL.updNone {τ : VecSpec.State V} {σ : VecList.State V} (h : VL C τ σ) {s : Nat} :
    VL C (World.upd τ s none) (World.upd σ s none) := by
  intro t
  by_cases ht : t = s
  · subst ht; simp only [upd_self]
  · simp only [upd_ne _ _ ht]; exact h t

theorem Lists.put {a : AVec V} {l : List (Cell V)} (h : Lists C a l) {i : Nat} (c : Cell V) :
    Lists C { a with cells := VecSpec.put a.cells i c } (l.set i c) := by
  refine ⟨h.known, by simpa using h.len, h.fit, fun j hj => ?_, h.roomy, fun j hj => ?_⟩
  · simp only [List.length_set] at hj
    simp only [VecSpec.put]
    by_cases hji : j = i
    · subst hji; simp [hj]
    · rw [if_neg hji, List.getElem?_set_ne (Ne.symm hji), h.cells j hj]
  · obtain ⟨h1, h2⟩ := h.writable j hj
    refine ⟨h1, ?_⟩
    rcases h2 with h2 | h2
    · exact .inl h2
    · refine .inr ?_
      simp only [VecSpec.put]
      split
      · rfl
      · exact h2

theorem Lists.fill {n E : Nat} (c : Cell V) (hn : n ≤ E) (hr : 5 ≤ E ∧ E < 2 ^ 53) (hc : ArrSpec.trivial C.L = true ∨ n = E) :
    Lists C (VecSpec.fill n E c) (List.replicate n c) := by
  refine ⟨rfl, by simp [VecSpec.fill], hn, fun i hi => ?_, hr, fun i hi => ⟨hi, ?_⟩⟩
  · simp only [List.length_replicate] at hi
    simp [VecSpec.fill, hi]
  · rcases hc with hc | hc
    · exact .inl hc
    · subst hc
      exact .inr (by simpa [VecSpec.fill] using hi)

/-- After a reallocation. -/
theorem Lists.reserve (hr : Roomy C.tr) (dv : V) {a : AVec V} {l : List (Cell V)} (h : Lists C a l) {m : Nat}
    (hm : ∀ e, selectSizes C.tr ⟨m, 1, 1⟩ = .ok e → l.length ≤ e.x) :
    match selectSizes C.tr ⟨m, 1, 1⟩ with
    | .error e => VecSpec.reserve C dv a m = some (a, .threw e)
    | .ok e => ∃ a', VecSpec.reserve C dv a m = some (a', .unit) ∧ Lists C a' l ∧ a'.ext = e.x ∧ a'.dim = e.x ∧
        (∀ i, i < e.x → (a'.cells i).isSome = true) := by
  unfold VecSpec.reserve
  cases hs : selectSizes C.tr ⟨m, 1, 1⟩ with
  | error e => rfl
  | ok e =>
    simp only
    have hme := hm e hs
    have hlen := h.len
    have hsome : ∀ i, i < a.n → (a.cells i).isSome = true := by
      intro i hi
      rw [h.cells i (by omega), List.getElem?_eq_getElem (by omega)]; rfl
    rw [if_pos ⟨h.known, by omega, h.fit, hsome⟩]
    have hall : ∀ i, i < e.x →
        ((if i < a.n then a.cells i else if i < e.x then some (dfltCell C.L dv) else none : Option (Cell V))).isSome = true := by
      intro i hi
      by_cases hi2 : i < a.n
      · rw [if_pos hi2]; exact hsome i hi2
      · rw [if_neg hi2, if_pos hi]; rfl
    refine ⟨_, rfl, ⟨rfl, hlen, by show a.n ≤ e.x; omega, fun i hi => ?_, hr m e hs, fun i hi => ⟨hi, .inr (hall i hi)⟩⟩, rfl, rfl,
      hall⟩
    show (if i < a.n then a.cells i else _) = _
    rw [if_pos (by omega)]
    exact h.cells i hi

theorem Lists.append {a : AVec V} {l : List (Cell V)} (h : Lists C a l) (hn : a.n < a.ext) (c : Cell V) :
    Lists C { a with n := a.n + 1, cells := VecSpec.put a.cells a.n c } (l ++ [c]) := by
  have hlen := h.len
  refine ⟨h.known, by simp [hlen], hn, fun i hi => ?_, h.roomy, fun i hi => ?_⟩
  · simp only [List.length_append, List.length_singleton] at hi
    simp only [VecSpec.put]
    by_cases hin : i = a.n
    · rw [if_pos hin, hin, hlen]; simp
    · rw [if_neg hin, List.getElem?_append_left (by omega), h.cells i (by omega)]
  · obtain ⟨h1, h2⟩ := h.writable i hi
    refine ⟨h1, ?_⟩
    rcases h2 with h2 | h2
    · exact .inl h2
    · refine .inr ?_
      simp only [VecSpec.put]
      split
      · rfl
      · exact h2

/-- Any number of elements, as long as there are objects. -/
theorem Lists.resize {a : AVec V} {l : List (Cell V)} (h : Lists C a l) {m : Nat} (hm : m ≤ a.ext)
    (hs : ∀ i, i < m → (a.cells i).isSome = true) :
    ∃ l', Lists C { a with n := m } l' ∧ l'.length = m ∧ l'.take l.length = l.take m := by
  cases hm0 : m with
  | zero =>
    subst hm0
    exact ⟨[], ⟨h.known, rfl, by simp, fun i hi => by simp at hi, h.roomy, h.writable⟩, rfl, by simp⟩
  | succ m' =>
    have h0 := hs 0 (by omega)
    obtain ⟨c0, hc0⟩ := Option.isSome_iff_exists.1 h0
    let l' : List (Cell V) := (List.range m).map fun i => (a.cells i).getD c0
    have hl' : ∀ i, i < m → l'[i]? = a.cells i := by
      intro i hi
      obtain ⟨c, hc⟩ := Option.isSome_iff_exists.1 (hs i hi)
      simp [l', hi, hc]
    refine ⟨l', ⟨h.known, by simp [l', hm0], by show m' + 1 ≤ a.ext; omega, fun i hi => ?_, h.roomy, h.writable⟩, by simp [l', hm0], ?_⟩
    · have : i < m := by simpa [l'] using hi
      exact (hl' i this).symm
    · rw [← hm0]
      apply List.ext_getElem?
      intro i
      by_cases hi : i < l.length
      · rw [List.getElem?_take_of_lt hi]
        by_cases hi2 : i < m
        · rw [List.getElem?_take_of_lt hi2, hl' i hi2, h.cells i hi]
        · rw [List.getElem?_eq_none (by simp [l']; omega), List.getElem?_eq_none (by simp; omega)]
      · rw [List.getElem?_eq_none (by simp; omega), List.getElem?_eq_none (by simp; omega)]

theorem onVec_eq {τ : VecSpec.State V} {s : Nat} {a : AVec V} (hs : τ s = some a) (f : AVec V → Option (AVec V × ArrOut V)) :
    VecSpec.onVec τ s f = (f a).map fun p => (upd τ s (some p.1), p.2) := by
  simp [VecSpec.onVec, hs]

theorem create_lists (h1 : OneD C.tr) (hr : Roomy C.tr) {τ : VecSpec.State V} {σ : VecList.State V} (h : VL C τ σ)
    {s n : Nat} (c : Cell V) (hn : σ s = none) (hc : ArrSpec.trivial C.L = true ∨ selectSizes C.tr ⟨n, 1, 1⟩ = .ok ⟨n, 1, 1⟩) :
    ∃ τ' out σ', VecSpec.create C τ s n c = some (τ', out) ∧
      VecList.Alloc C n σ σ' out (σ' = upd σ s (some (List.replicate n c))) ∧ VL C τ' σ' := by
  unfold VecSpec.create VecList.Alloc
  rw [h.absent hn]
  cases hs : selectSizes C.tr ⟨n, 1, 1⟩ with
  | error e => exact ⟨τ, .threw e, σ, rfl, ⟨rfl, rfl⟩, h⟩
  | ok e =>
    refine ⟨_, .unit, _, rfl, ⟨rfl, rfl⟩, h.upd (Lists.fill c (selectSizes_fits hs).1 (hr n e hs) ?_)⟩
    rcases hc with hc | hc
    · exact .inl hc
    · rw [hs] at hc
      injection hc with hc
      right; rw [hc]

/-- One operation. -/
theorem list_step (h1 : OneD C.tr) (hr : Roomy C.tr) (dv : V) {w : VecWorld V} {τ : VecSpec.State V} {σ : VecList.State V}
    (hR : VR C w τ) (h : VL C τ σ) (op : VecOp V) (hpre : VecList.Pre C σ op) :
    ∃ τ' out σ', VecSpec.step C dv τ op = some (τ', out) ∧ VecList.Post C dv σ op σ' out ∧ VL C τ' σ' := by
  have same : ∀ {s : Nat} {a : AVec V}, τ s = some a → VL C (World.upd τ s (some a)) σ := by
    intro s a ha
    rw [← ha, upd_id]; exact h
  cases op with
  | new s n => exact create_lists h1 hr h _ hpre.1 hpre.2
  | newFill s n c => exact create_lists h1 hr h c hpre.1 hpre.2
  | copy s t => exact hpre.elim
  | assign s t => exact hpre.elim
  | capacity s => exact hpre.elim
  | destroy s =>
    obtain ⟨l, hl⟩ := hpre
    obtain ⟨a, ha, hA⟩ := h.vec hl
    exact ⟨_, _, _, by simp only [VecSpec.step, ha], ⟨rfl, rfl⟩, h.updNone⟩
  | set s i c =>
    obtain ⟨l, hl, hi⟩ := hpre
    obtain ⟨a, ha, hA⟩ := h.vec hl
    have hlen := hA.len
    have hfit := hA.fit
    refine ⟨_, .unit, _, ?_, ⟨l, hl, rfl, rfl⟩, h.upd (hA.put c)⟩
    simp only [VecSpec.step, onVec_eq ha, if_pos (hA.writable i (by omega)), Option.map_some]
  | get s i t =>
    obtain ⟨l, hl, hi⟩ := hpre
    obtain ⟨a, ha, hA⟩ := h.vec hl
    have hg : l[i]? = some l[i] := List.getElem?_eq_getElem hi
    refine ⟨_, _, σ, ?_, ⟨l, l[i], hl, hg, rfl, rfl⟩, same ha⟩
    simp only [VecSpec.step, onVec_eq ha, hA.cells i hi, hg, Option.map_some]
  | push s c =>
    obtain ⟨l, hl⟩ := hpre
    obtain ⟨a, ha, hA⟩ := h.vec hl
    by_cases hn : a.n = a.ext
    · have hgt := grow_gt (n := a.n) (by rw [hn]; exact hA.roomy.1) (by rw [hn]; exact hA.roomy.2)
      have hlen := hA.len
      obtain ⟨g, _, hok⟩ := hR.vec ha
      have hfull : selectSizes C.tr ⟨l.length, 1, 1⟩ = .ok ⟨l.length, 1, 1⟩ := by
        rw [← hlen, hn]; exact h1.idem hok.sel
      have hres := hA.reserve hr dv (m := grow a.n)
        (fun e he => by have h3 : grow a.n ≤ e.x := (selectSizes_fits he).1; omega)
      cases hs : selectSizes C.tr ⟨grow a.n, 1, 1⟩ with
      | error e =>
        rw [hs] at hres
        refine ⟨_, .threw e, σ, ?_, ⟨l, hl, .inr ⟨e, hfull, by rw [← hlen]; exact hs, rfl, rfl⟩⟩, same ha⟩
        have hres' : VecSpec.reserve C dv a (grow a.n) = some (a, .threw e) := hres
        simp only [VecSpec.step, onVec_eq ha, VecSpec.push, if_pos hA.known, if_pos hn, hres', Option.map_some]
      | ok e =>
        rw [hs] at hres
        obtain ⟨a', k1, k2, k3, k4, _⟩ := hres
        have hge : grow a.n ≤ e.x := (selectSizes_fits hs).1
        have hlen' := k2.len
        have hlt : a'.n < a'.ext := by omega
        refine ⟨_, .unit, _, ?_, ⟨l, hl, .inl ⟨rfl, rfl⟩⟩, h.upd (k2.append hlt c)⟩
        simp only [VecSpec.step, onVec_eq ha, VecSpec.push, if_pos hA.known, if_pos hn, k1, if_pos (k2.writable _ hlt), Option.map_some]
    · have hlt : a.n < a.ext := by have := hA.fit; omega
      refine ⟨_, .unit, _, ?_, ⟨l, hl, .inl ⟨rfl, rfl⟩⟩, h.upd (hA.append hlt c)⟩
      simp only [VecSpec.step, onVec_eq ha, VecSpec.push, if_pos hA.known, if_neg hn, if_pos (hA.writable _ hlt), Option.map_some]
  | pop s td =>
    obtain ⟨l, hl, hne⟩ := hpre
    obtain ⟨a, ha, hA⟩ := h.vec hl
    have hlen := hA.len
    have hpos : 0 < l.length := List.length_pos_iff.2 hne
    have hfit := hA.fit
    have hL2 : Lists C { a with n := a.n - 1, cells := VecSpec.put a.cells (a.n - 1) td } l.dropLast := by
      have hp := hA.put (i := a.n - 1) td
      refine ⟨hA.known, by simp [hlen], by show a.n - 1 ≤ a.ext; omega, fun i hi => ?_, hA.roomy, hp.writable⟩
      simp only [List.length_dropLast] at hi
      simp only [VecSpec.put]
      rw [if_neg (by omega), List.getElem?_dropLast, if_pos (by omega), hA.cells i (by omega)]
    refine ⟨_, .unit, _, ?_, ⟨l, hl, rfl, rfl⟩, h.upd hL2⟩
    simp only [VecSpec.step, onVec_eq ha, if_pos (show 0 < a.n ∧ VecSpec.Writable C.L a (a.n - 1) from
      ⟨by omega, hA.writable _ (by omega)⟩), Option.map_some]
  | clear s =>
    obtain ⟨l, hl⟩ := hpre
    obtain ⟨a, ha, hA⟩ := h.vec hl
    refine ⟨World.upd τ s (some { a with n := 0 }), .unit, _, by simp only [VecSpec.step, onVec_eq ha, Option.map_some], ⟨rfl, rfl⟩,
      h.upd (l := []) ?_⟩
    exact ⟨hA.known, rfl, by simp, fun i hi => by simp at hi, hA.roomy, hA.writable⟩
  | resize s m =>
    obtain ⟨l, hl⟩ := hpre
    obtain ⟨a, ha, hA⟩ := h.vec hl
    obtain ⟨g, _, hok⟩ := hR.vec ha
    have hlen := hA.len
    by_cases hm : m > a.dim
    · have hroom : ∀ e, selectSizes C.tr ⟨m, 1, 1⟩ = .ok e → l.length ≤ e.x := by
        intro e he
        by_cases hme : m ≤ a.ext
        · have h2 := h1.between hok.sel (by omega) hme
          rw [he] at h2; cases h2
          have := hA.fit; show l.length ≤ a.ext; omega
        · have h3 : m ≤ e.x := (selectSizes_fits he).1
          have := hA.fit; omega
      have hres := hA.reserve hr dv (m := m) hroom
      cases hs : selectSizes C.tr ⟨m, 1, 1⟩ with
      | error e =>
        rw [hs] at hres
        have hres' : VecSpec.reserve C dv a m = some (a, .threw e) := hres
        have hlt : l.length < m := by
          by_contra hge
          have h2 := h1.between hok.sel (m := m) (by omega) (by have := hA.fit; show m ≤ a.ext; omega)
          rw [hs] at h2; cases h2
        refine ⟨_, .threw e, σ, ?_, ⟨l, hl, .inr ⟨e, hlt, hs, rfl, rfl⟩⟩, same ha⟩
        simp only [VecSpec.step, onVec_eq ha, VecSpec.resize, if_pos hm, hres', Option.map_some]
      | ok e =>
        rw [hs] at hres
        obtain ⟨a', k1, k2, k3, k4, k5⟩ := hres
        have hge : m ≤ e.x := (selectSizes_fits hs).1
        obtain ⟨l', j1, j2, j3⟩ := k2.resize (m := m) (by omega) (fun i hi => k5 i (by omega))
        refine ⟨_, .unit, _, ?_, ⟨l, hl, .inl ⟨l', rfl, rfl, j2, j3⟩⟩, h.upd j1⟩
        simp only [VecSpec.step, onVec_eq ha, VecSpec.resize, if_pos hm, k1, Option.map_some]
    · obtain ⟨l', j1, j2, j3⟩ := hA.resize (m := m) (by have := hok.le; omega) (fun i hi => hok.live i (by omega))
      refine ⟨_, .unit, _, ?_, ⟨l, hl, .inl ⟨l', rfl, rfl, j2, j3⟩⟩, h.upd j1⟩
      simp only [VecSpec.step, onVec_eq ha, VecSpec.resize, if_neg hm, Option.map_some]
  | reserve s m =>
    obtain ⟨l, hl, hm⟩ := hpre
    obtain ⟨a, ha, hA⟩ := h.vec hl
    have hres := hA.reserve hr dv hm
    simp only [VecSpec.step, onVec_eq ha, VecList.Post, VecList.Alloc]
    cases hs : selectSizes C.tr ⟨m, 1, 1⟩ with
    | error e =>
      rw [hs] at hres
      have hres' : VecSpec.reserve C dv a m = some (a, .threw e) := hres
      exact ⟨_, .threw e, σ, by rw [hres']; rfl, ⟨rfl, rfl⟩, same ha⟩
    | ok e =>
      rw [hs] at hres
      obtain ⟨a', k1, k2, k3, k4, _⟩ := hres
      refine ⟨_, .unit, σ, by rw [k1]; rfl, ⟨rfl, rfl⟩, ?_⟩
      have := h.upd (s := s) k2
      rwa [← hl, upd_id] at this
  | size s =>
    obtain ⟨l, hl⟩ := hpre
    obtain ⟨a, ha, hA⟩ := h.vec hl
    exact ⟨World.upd τ s (some a), .nat a.n, σ, by simp only [VecSpec.step, onVec_eq ha, Option.map_some],
      ⟨l, hl, by rw [hA.len], rfl⟩, same ha⟩
  | empty s =>
    obtain ⟨l, hl⟩ := hpre
    obtain ⟨a, ha, hA⟩ := h.vec hl
    refine ⟨World.upd τ s (some a), .nat (if a.n = 0 then 1 else 0), σ, by simp only [VecSpec.step, onVec_eq ha, Option.map_some],
      ⟨l, hl, ?_, rfl⟩, same ha⟩
    have : (a.n = 0) = (l = []) := by rw [hA.len]; simp
    simp only [this]
  | poke s x X r k v =>
    obtain ⟨l, m, hl, hm, hk, h0, hi⟩ := hpre
    obtain ⟨a, ha, hA⟩ := h.vec hl
    have hi' : (x + X).toNat < l.length := by omega
    have hg : l[(x + X).toNat]? = some l[(x + X).toNat] := List.getElem?_eq_getElem hi'
    refine ⟨_, .unit, _, ?_, ⟨l, _, hl, hg, rfl, rfl⟩, h.upd (hA.put _)⟩
    simp only [VecSpec.step, onVec_eq ha, hm, hA.cells _ hi', hg, if_pos (show 0 ≤ x + X ∧ k < m.elems from ⟨h0, hk⟩), Option.map_some]
  | peek s x X r k =>
    obtain ⟨l, m, hl, hm, hk, h0, hi⟩ := hpre
    obtain ⟨a, ha, hA⟩ := h.vec hl
    have hi' : (x + X).toNat < l.length := by omega
    have hg : l[(x + X).toNat]? = some l[(x + X).toNat] := List.getElem?_eq_getElem hi'
    refine ⟨_, _, σ, ?_, ⟨l, _, hl, hg, rfl, rfl⟩, same ha⟩
    simp only [VecSpec.step, onVec_eq ha, hm, hA.cells _ hi', hg, if_pos (show 0 ≤ x + X ∧ k < m.elems from ⟨h0, hk⟩), Option.map_some]

/-- Programs. -/
theorem list_run (hL : C.L.WF) (h1 : OneD C.tr) (hr : Roomy C.tr) (dv : V) (ops : List (VecOp V)) : ∀ {w : VecWorld V}
    {τ : VecSpec.State V} {σ : VecList.State V}, VR C w τ → VL C τ σ → VecList.Legal C dv σ ops →
    ∃ w' outs τ' σ', w.run C ops = .ok (w', outs) ∧ VecList.Run C dv σ ops outs σ' ∧ VR C w' τ' ∧ VL C τ' σ' := by
  induction ops with
  | nil => intro w τ σ hR h _; exact ⟨w, [], τ, σ, rfl, ⟨rfl, rfl⟩, hR, h⟩
  | cons op ops ih =>
    intro w τ σ hR h hleg
    obtain ⟨τ1, out, σ1, e1, e2, e3⟩ := list_step h1 hr dv hR h op hleg.1
    obtain ⟨w1, e4, hR1⟩ := vec_step_refines hL h1 dv hR op e1
    obtain ⟨w', outs, τ', σ', k1, k2, k3, k4⟩ := ih hR1 e3 (hleg.2 σ1 out e2)
    refine ⟨w', out :: outs, τ', σ', ?_, ⟨out, outs, σ1, rfl, e2, k2⟩, k3, k4⟩
    simp only [VecWorld.run, e4, k1]

end
end LFA
