import Verif.DevArr
import Verif.Props.Share
import Verif.Props.DevClients
import Verif.Props.Adaptive

/-
  C88: soa_arrays in device memory. They are copied to the device and back by their bytes, and used by kernels (DevArr.lean).
-/
set_option linter.unusedSectionVars false
set_option linter.unusedVariables false
namespace LFA
namespace DevArr
open LFA.Share (Loc Respects alone accesses stepAlone)
open LFA.Share.Arr (valA)
open ND
variable {V : Type} [DecidableEq V] {L : Layout V} {dv : V} {ρ : Type}

/-! ### Vocabulary: lists of bounded length, on the host and on the device -/

/-- Lists of the host, lists on the device, and the capacities for which device memory has been allocated. -/
structure Lists (V : Type) where
  host : ArrSpec.State V
  dev : ArrSpec.State V
  buf : Nat → Option Nat

namespace Spec

/-- Nothing exists. -/
def start : Lists V := ⟨ArrSpec.start, ArrSpec.start, fun _ => none⟩

/-- Calls in kernels, on lists; `none` if the kernel violated the contract. -/
def call (L : Layout V) (σ : ArrSpec.State V) : ArrOp V → Option (ArrSpec.State V × ArrOut V)
  | .push s c =>
    match σ s with
    | some (N, l) => if l.length < N then some (ArrWorld.upd σ s (some (N, l ++ [c])), .unit) else none
    | none => none
  | .pop s =>
    match σ s with
    | some (N, l) => if l = [] then none else some (ArrWorld.upd σ s (some (N, l.dropLast)), .unit)
    | none => none
  | .assign s t true =>
    match σ s, σ t with
    | some (N, _), some (M, l) => if N = M ∧ ArrSpec.trivial L = true then some (ArrWorld.upd σ s (some (N, l)), .unit) else none
    | _, _ => none
  | .set s i c => ArrSpec.step L σ (.set s i c)
  | .get s i t => ArrSpec.step L σ (.get s i t)
  | .poke s i r k v => ArrSpec.step L σ (.poke s i r k v)
  | .peek s i r k => ArrSpec.step L σ (.peek s i r k)
  | .clear s => ArrSpec.step L σ (.clear s)
  | .back s t => ArrSpec.step L σ (.back s t)
  | .size s => ArrSpec.step L σ (.size s)
  | .capacity s => ArrSpec.step L σ (.capacity s)
  | .iter s t => ArrSpec.step L σ (.iter s t)
  | _ => none

/-- A kernel of one thread, on lists. -/
def client (L : Layout V) : Prog (ArrOp V) (ArrOut V) ρ → ArrSpec.State V → Option (ArrSpec.State V × ρ)
  | .ret r, σ => some (σ, r)
  | .call op k, σ =>
    match call L σ op with
    | none => none
    | some (σ', out) => client L (k out) σ'

/-- A thread of a kernel, on lists. -/
def thread (L : Layout V) : Share.Prog Loc V Unit → ArrSpec.State V → Option (ArrSpec.State V)
  | .ret _, σ => some σ
  | .tau c, σ => thread L c σ
  | .peek p c, σ =>
    match ArrSpec.step L σ (.peek p.s p.i p.r p.k) with
    | some (_, .val v) => thread L (c v) σ
    | _ => none
  | .poke p v c, σ =>
    match ArrSpec.step L σ (.poke p.s p.i p.r p.k v) with
    | some (σ', _) => thread L c σ'
    | none => none

/-- The first `n` threads, one after the other. -/
def threads (L : Layout V) (T : Nat → Share.Prog Loc V Unit) : Nat → ArrSpec.State V → Option (ArrSpec.State V)
  | 0, σ => some σ
  | n + 1, σ => (threads L T n σ).bind (thread L (T n))

/-- The member exists. -/
def Has (L : Layout V) (σ : ArrSpec.State V) (l : Loc) : Prop :=
  ∃ N x m, σ l.s = some (N, x) ∧ L[l.r]? = some m ∧ l.k < m.elems ∧ 0 ≤ l.i ∧ l.i < x.length

/-- Each member is accessed by one thread only, or only read, and all accesses are to elements. -/
def RaceFree (L : Layout V) (σ : ArrSpec.State V) (n : Nat) (T : Nat → Share.Prog Loc V Unit) : Prop :=
  ∃ own : Loc → Option Nat, ∀ i, i < n → Respects id (Has L σ) own i (T i)

/-- The lengths of the lists. -/
def lengths (σ : ArrSpec.State V) (t : Nat) : Option Nat := (σ t).map fun q => q.2.length

open Classical in
/-- Effect and result of each call of the host; `none` if it violated the contract. Kernels act as if their threads ran one after the other. -/
noncomputable def step (L : Layout V) (a : Lists V) : Op V → Option (Lists V × ArrOut V)
  | .host op => (ArrSpec.step L a.host op).map fun q => ({ a with host := q.1 }, q.2)
  | .malloc t N =>
    match a.buf t with
    | none => some (⟨a.host, ArrWorld.upd a.dev t none, ArrWorld.upd a.buf t (some N)⟩, .unit)
    | some _ => none
  | .free t =>
    match a.buf t with
    | some _ => some (⟨a.host, ArrWorld.upd a.dev t none, ArrWorld.upd a.buf t none⟩, .unit)
    | none => none
  | .toDev t s =>
    match a.buf t, a.host s with
    | some N, some (M, l) =>
      if N = M ∧ ArrSpec.trivial L = true then some ({ a with dev := ArrWorld.upd a.dev t (some (M, l)) }, .unit) else none
    | _, _ => none
  | .toHost s t =>
    match a.host s, a.dev t with
    | some (N, _), some (M, l) =>
      if N = M ∧ ArrSpec.trivial L = true then some ({ a with host := ArrWorld.upd a.host s (some (M, l)) }, .unit) else none
    | _, _ => none
  | .copyDev t t' =>
    match a.buf t, a.dev t' with
    | some N, some (M, l) =>
      if N = M ∧ ArrSpec.trivial L = true then some ({ a with dev := ArrWorld.upd a.dev t (some (M, l)) }, .unit) else none
    | _, _ => none
  | .one p => (client L p a.dev).map fun q => ({ a with dev := q.1 }, .unit)
  | .many g b T =>
    if RaceFree L a.dev (threadsOf g b) (T (lengths a.dev)) then
      (threads L (T (lengths a.dev)) (threadsOf g b) a.dev).map fun σ => ({ a with dev := σ }, .unit)
    else none

end Spec

/-! ### Kernels of one thread -/

theorem call_refines (hL : L.WF) (dv : V) {w : ArrWorld V} {σ σ' : ArrSpec.State V} (hR : ArrR L w σ) {op : ArrOp V} {out : ArrOut V}
    (h : Spec.call L σ op = some (σ', out)) : ∃ w', call L w op = .ok (w', out) ∧ ArrR L w' σ' := by
  cases op with
  | push s c =>
    simp only [Spec.call] at h
    cases hs : σ s with
    | none => rw [hs] at h; cases h
    | some q =>
      obtain ⟨N, l⟩ := q
      rw [hs] at h
      simp only at h
      split at h
      · rename_i hlt
        cases h
        obtain ⟨a, ha, hrep⟩ := hR.arr hs
        obtain ⟨a', d1, d2⟩ := hrep.pushBack hL hlt c
        have hn : a.n + 1 < 2 ^ 64 := by have := hrep.int; have := hrep.len; omega
        refine ⟨⟨ArrWorld.upd w.a s (some a'), w.gone⟩, ?_, hR.upd d2⟩
        simp only [SArr.push] at d1
        rw [if_neg (by rw [hrep.cap, hrep.len]; omega)] at d1
        simp only [call, ArrWorld.withA, ha, push, Nat.mod_eq_of_lt hn]
        cases e : (SArr.accSz a.N a.n).setCell L c a.data with
        | error u => rw [e] at d1; cases d1
        | ok b => rw [e] at d1; cases d1; rfl
      · cases h
  | pop s =>
    simp only [Spec.call] at h
    cases hs : σ s with
    | none => rw [hs] at h; cases h
    | some q =>
      obtain ⟨N, l⟩ := q
      rw [hs] at h
      simp only at h
      split at h
      · cases h
      · rename_i hne
        cases h
        obtain ⟨a, ha, hrep⟩ := hR.arr hs
        have hpos : 0 < l.length := List.length_pos_iff.2 hne
        have := hrep.int
        have := hrep.fits
        have e : SArr.pred64 a.n = l.length - 1 := by
          unfold SArr.pred64
          rw [hrep.len, show l.length + 2 ^ 64 - 1 = l.length - 1 + 2 ^ 64 by omega, Nat.add_mod_right, Nat.mod_eq_of_lt (by omega)]
        refine ⟨⟨ArrWorld.upd w.a s (some (pop a)), w.gone⟩, by simp only [call, ArrWorld.withA, ha], hR.upd ?_⟩
        rw [List.dropLast_eq_take]
        unfold pop
        rw [e]
        exact hrep.take (by omega)
  | assign s t cst =>
    cases cst with
    | false => simp only [Spec.call] at h; cases h
    | true =>
      simp only [Spec.call] at h
      cases hs : σ s with
      | none => rw [hs] at h; cases h
      | some q =>
        obtain ⟨N, l⟩ := q
        cases ht : σ t with
        | none => rw [hs, ht] at h; cases h
        | some q =>
          obtain ⟨M, l'⟩ := q
          rw [hs, ht] at h
          simp only at h
          split at h
          · rename_i hc
            cases h
            obtain ⟨rfl, hT⟩ := hc
            obtain ⟨a, ha, hrep⟩ := hR.arr hs
            obtain ⟨o, ho, hrepo⟩ := hR.arr ht
            refine ⟨⟨ArrWorld.upd w.a s (some ⟨o.N, o.n, o.data.bytes⟩), w.gone⟩, ?_, hR.upd (hrepo.bytewise hT)⟩
            simp only [call, ArrWorld.withA, ha, ho, hrep.cap, hrepo.cap, if_true, ArrWorld.step, and_self]
          · cases h
  | set s i c => exact arr_step_refines (op := .set s i c) hL dv hR h
  | get s i t => exact arr_step_refines (op := .get s i t) hL dv hR h
  | poke s i r k v => exact arr_step_refines (op := .poke s i r k v) hL dv hR h
  | peek s i r k => exact arr_step_refines (op := .peek s i r k) hL dv hR h
  | clear s => exact arr_step_refines (op := .clear s) hL dv hR h
  | back s t => exact arr_step_refines (op := .back s t) hL dv hR h
  | size s => exact arr_step_refines (op := .size s) hL dv hR h
  | capacity s => exact arr_step_refines (op := .capacity s) hL dv hR h
  | iter s t => exact arr_step_refines (op := .iter s t) hL dv hR h
  | new s N n v => simp only [Spec.call] at h; cases h
  | copy s N t cst => simp only [Spec.call] at h; cases h
  | destroy s => simp only [Spec.call] at h; cases h
  | load s t j num off => simp only [Spec.call] at h; cases h
  | append s t j num => simp only [Spec.call] at h; cases h
  | byteSize s => simp only [Spec.call] at h; cases h
  | swap s t => simp only [Spec.call] at h; cases h

theorem client_refines (hL : L.WF) (dv : V) : ∀ (p : Prog (ArrOp V) (ArrOut V) ρ) {w : ArrWorld V} {σ σ' : ArrSpec.State V} {r : ρ},
    ArrR L w σ → Spec.client L p σ = some (σ', r) → ∃ w', p.exec (call L) w = .ok (w', r) ∧ ArrR L w' σ'
  | .ret r', w, σ, σ', r, hR, h => by cases h; exact ⟨w, rfl, hR⟩
  | .call op k, w, σ, σ', r, hR, h => by
    simp only [Spec.client] at h
    cases e : Spec.call L σ op with
    | none => rw [e] at h; cases h
    | some q =>
      rw [e] at h
      obtain ⟨w1, h1, h2⟩ := call_refines hL dv hR e
      obtain ⟨w', k1, k2⟩ := client_refines hL dv (k q.2) h2 h
      exact ⟨w', by rw [Prog.exec, h1]; exact k1, k2⟩

/-! ### Kernels of many threads -/

/-- The same capacities and lengths. -/
def Shape (σ τ : ArrSpec.State V) : Prop := ∀ s, (τ s).map (fun q => (q.1, q.2.length)) = (σ s).map (fun q => (q.1, q.2.length))

theorem Shape.refl (σ : ArrSpec.State V) : Shape σ σ := fun _ => rfl
theorem Shape.trans {σ τ υ : ArrSpec.State V} (h : Shape σ τ) (h' : Shape τ υ) : Shape σ υ := fun s => (h' s).trans (h s)
theorem Shape.symm {σ τ : ArrSpec.State V} (h : Shape σ τ) : Shape τ σ := fun s => (h s).symm

theorem Shape.arr {σ τ : ArrSpec.State V} (h : Shape σ τ) {s N : Nat} {x : List (Cell V)} (hs : σ s = some (N, x)) :
    ∃ y, τ s = some (N, y) ∧ y.length = x.length := by
  have := h s
  rw [hs] at this
  obtain ⟨q, h1, h2⟩ := Option.map_eq_some_iff.1 this
  obtain ⟨M, y⟩ := q
  simp only [Prod.mk.injEq] at h2
  exact ⟨y, by rw [h1, h2.1], h2.2⟩

theorem Shape.has {σ τ : ArrSpec.State V} (h : Shape σ τ) {l : Loc} (hl : Spec.Has L σ l) : Spec.Has L τ l := by
  obtain ⟨N, x, m, h1, h2, h3, h4, h5⟩ := hl
  obtain ⟨y, k1, k2⟩ := h.arr h1
  exact ⟨N, y, m, k1, h2, h3, h4, by omega⟩

theorem peek_abs {σ : ArrSpec.State V} {l : Loc} (h : Spec.Has L σ l) :
    ArrSpec.step L σ (.peek l.s l.i l.r l.k) = some (σ, .val (valA dv σ l)) := by
  obtain ⟨N, x, m, h1, h2, h3, h4, h5⟩ := h
  have hlt : l.i.toNat < x.length := by omega
  simp only [ArrSpec.step, h1, h2, valA, List.getElem?_eq_getElem hlt, Option.map_some, Option.getD_some]
  rw [if_neg (by push Not; exact ⟨h4, h3⟩)]

theorem poke_abs {σ : ArrSpec.State V} {l : Loc} (h : Spec.Has L σ l) (v : V) :
    ∃ σ', ArrSpec.step L σ (.poke l.s l.i l.r l.k v) = some (σ', .unit) ∧ Shape σ σ' ∧
      ∀ l', Spec.Has L σ l' → valA dv σ' l' = if l' = l then v else valA dv σ l' := by
  obtain ⟨N, x, m, hs, h2, h3, h4, h5⟩ := h
  have hlt : l.i.toNat < x.length := by omega
  refine ⟨ArrWorld.upd σ l.s (some (N, x.set l.i.toNat (x[l.i.toNat].set l.r l.k v))), ?_, fun s' => ?_, fun l' hl' => ?_⟩
  · simp only [ArrSpec.step, hs, h2, List.getElem?_eq_getElem hlt]
    rw [if_neg (by push Not; exact ⟨h4, h3⟩)]
  · by_cases es : s' = l.s
    · subst es
      simp only [ArrWorld.upd, if_true, hs, Option.map_some, List.length_set]
    · simp only [ArrWorld.upd, if_neg es]
  · obtain ⟨N', x', m', q1, q2, q3, q4, q5⟩ := hl'
    by_cases es : l'.s = l.s
    · rw [es, hs] at q1
      cases q1
      simp only [valA, ArrWorld.upd, es, hs, if_true]
      by_cases ei : l'.i = l.i
      · rw [ei, List.getElem?_set_self hlt, List.getElem?_eq_getElem hlt]
        simp only [Option.map_some, Option.getD_some, Cell.set]
        by_cases ek : l'.r = l.r ∧ l'.k = l.k
        · have : l' = l := by cases l'; cases l; simp_all
          rw [if_pos ek, if_pos this]
        · have : l' ≠ l := fun h => ek (by rw [h]; exact ⟨rfl, rfl⟩)
          rw [if_neg ek, if_neg this]
      · have : l' ≠ l := fun h => ei (by rw [h])
        rw [List.getElem?_set_ne (by omega), if_neg this]
    · have : l' ≠ l := fun h => es (by rw [h])
      rw [if_neg this]
      simp only [valA, ArrWorld.upd, if_neg es]

/-- A thread on lists does what it does alone. -/
theorem thread_abs {σ : ArrSpec.State V} {own : Loc → Option Nat} {i : Nat} (t : Share.Prog Loc V Unit) (ht : Respects id (Spec.Has L σ) own i t)
    {τ : ArrSpec.State V} (hτ : Shape σ τ) (f : Loc → V) (hf : ∀ l, Spec.Has L σ l → f l = valA dv τ l) :
    ∃ τ', Spec.thread L t τ = some τ' ∧ Shape σ τ' ∧ ∀ l, Spec.Has L σ l → valA dv τ' l = (alone id f t).2 l := by
  induction t generalizing τ f with
  | ret v => exact ⟨τ, rfl, hτ, fun l hl => (hf l hl).symm⟩
  | tau c ih => exact ih ht hτ f hf
  | peek p c ih =>
    obtain ⟨h1, -, h3⟩ := ht
    replace h1 : Spec.Has L σ p := h1
    obtain ⟨τ', k1, k2, k3⟩ := ih (f p) (h3 _) hτ f hf
    refine ⟨τ', ?_, k2, k3⟩
    simp only [Spec.thread, peek_abs (dv := dv) (hτ.has h1)]
    rw [← hf p h1]
    exact k1
  | poke p v c ih =>
    obtain ⟨h1, -, h3⟩ := ht
    replace h1 : Spec.Has L σ p := h1
    obtain ⟨τ1, e1, e2, e3⟩ := poke_abs (dv := dv) (hτ.has h1) v
    obtain ⟨τ', k1, k2, k3⟩ := ih h3 (hτ.trans e2) (fun l => if l = p then v else f l) (fun l hl => by
      rw [e3 l (hτ.has hl), hf l hl])
    refine ⟨τ', ?_, k2, k3⟩
    simp only [Spec.thread, e1]
    exact k1

/-- A thread which runs alone depends only on what it may read. -/
theorem alone_congr {inside : Loc → Prop} {own : Loc → Option Nat} {i : Nat} (t : Share.Prog Loc V Unit) (ht : Respects id inside own i t)
    (f g : Loc → V) (h : ∀ l, inside l → own l = none ∨ own l = some i → f l = g l) :
    ∀ l, inside l → own l = none ∨ own l = some i → (alone id f t).2 l = (alone id g t).2 l := by
  induction t generalizing f g with
  | ret v => exact h
  | tau c ih => exact ih ht f g h
  | peek p c ih =>
    obtain ⟨h1, h2, h3⟩ := ht
    simp only [alone, id]
    rw [h p h1 h2]
    exact ih _ (h3 _) f g h
  | poke p v c ih =>
    exact ih ht.2.2 _ _ fun l hl ho => by
      by_cases e : l = p
      · simp [e]
      · simp only [id, e, if_false]; exact h l hl ho

theorem alone_frame {inside : Loc → Prop} {own : Loc → Option Nat} {i : Nat} (t : Share.Prog Loc V Unit) (ht : Respects id inside own i t)
    (f : Loc → V) {l : Loc} (hl : own l ≠ some i) : (alone id f t).2 l = f l := by
  induction t generalizing f with
  | ret v => rfl
  | tau c ih => exact ih ht f
  | peek p c ih => exact ih _ (ht.2.2 _) f
  | poke p v c ih =>
    simp only [alone]
    rw [ih ht.2.2]
    have : l ≠ p := by rintro rfl; exact hl ht.2.1
    simp [this]

/-- The threads one after the other: each does what it would do alone. -/
theorem threads_abs {σ : ArrSpec.State V} {own : Loc → Option Nat} (T : Nat → Share.Prog Loc V Unit) : ∀ n,
    (∀ i, i < n → Respects id (Spec.Has L σ) own i (T i)) → ∃ τ, Spec.threads L T n σ = some τ ∧ Shape σ τ ∧
      ∀ l, Spec.Has L σ l → valA dv τ l = match own l with
        | none => valA dv σ l
        | some i => if i < n then (alone id (valA dv σ) (T i)).2 l else valA dv σ l
  | 0, _ => ⟨σ, rfl, Shape.refl σ, fun l _ => by cases own l <;> simp⟩
  | n + 1, h => by
    obtain ⟨τ, h1, h2, h3⟩ := threads_abs T n fun i hi => h i (by omega)
    obtain ⟨τ', k1, k2, k3⟩ := thread_abs (dv := dv) (T n) (h n (by omega)) h2 (valA dv τ) (fun _ _ => rfl)
    refine ⟨τ', by simp only [Spec.threads, h1, Option.bind_some, k1], k2, fun l hl => ?_⟩
    rw [k3 l hl]
    have hsame : ∀ l, Spec.Has L σ l → own l = none ∨ own l = some n → valA dv τ l = valA dv σ l := by
      rintro l hl (ho | ho)
      · rw [h3 l hl, ho]
      · rw [h3 l hl, ho]; simp
    cases ho : own l with
    | none =>
      rw [alone_frame (T n) (h n (by omega)) _ (by rw [ho]; exact fun h => nomatch h)]
      exact hsame l hl (.inl ho)
    | some i =>
      by_cases e : i = n
      · subst e
        simp only [Nat.lt_succ_self, if_true]
        exact alone_congr (T i) (h i (by omega)) _ _ hsame l hl (.inr ho)
      · rw [alone_frame (T n) (h n (by omega)) _ (by rw [ho]; simpa using e), h3 l hl, ho]
        simp only [show i < n + 1 ↔ i < n by omega]

/-- The relation only depends on the values of members. -/
theorem ArrR.values {w : ArrWorld V} {σ τ : ArrSpec.State V} (hR : ArrR L w σ) (hs : Shape σ τ)
    (hv : ∀ l, Spec.Has L σ l → valA dv σ l = valA dv τ l) : ArrR L w τ := by
  intro s
  cases ht : τ s with
  | none =>
    have h0 : σ s = none := by have := hs s; rw [ht] at this; simpa using this.symm
    exact hR.absent h0
  | some q =>
    obtain ⟨N, y⟩ := q
    obtain ⟨x, hx, hlen⟩ := hs.symm.arr ht
    obtain ⟨a, ha, hrep⟩ := hR.arr hx
    refine ⟨a, ha, hrep.cap, by rw [hrep.len, hlen], by rw [← hlen]; exact hrep.fits, hrep.int, hrep.size, ?_⟩
    obtain ⟨c, hv1, hc⟩ := hrep.cells
    refine ⟨fun i => if h : i < y.length then y[i] else c i, ?_, fun i hi => by simp [hi]⟩
    refine ⟨hv1.size, fun r m k i v hr hk hi hcv => hv1.hsome r m k i v hr hk hi ?_, fun r m k i hr hk hi hcn => by simp [SArr.cont] at hcn⟩
    rw [← hcv]
    simp only [SArr.cont]
    by_cases h : i < y.length
    · have hix : i < x.length := by omega
      have := hv ⟨s, (i : Nat), r, k⟩ ⟨N, x, m, hx, hr, hk, by simp, by simpa using hix⟩
      simp only [valA, hx, ht, Int.toNat_natCast, List.getElem?_eq_getElem h, hc i hix, Option.map_some, Option.getD_some] at this
      simp only [dif_pos h, this]
    · simp only [dif_neg h]

/-- However the steps of the threads are ordered, the kernel does what its threads do one after the other. -/
theorem runThreads_always (hL : L.WF) (dv : V) {w : ArrWorld V} {σ σ' : ArrSpec.State V} (hR : ArrR L w σ) {n : Nat}
    {T : Nat → Share.Prog Loc V Unit} (hT : Spec.RaceFree L σ n T) (h : Spec.threads L T n σ = some σ') :
    Always (runThreads L n T w) fun w' => ArrR L w' σ' := by
  obtain ⟨own, hown⟩ := hT
  obtain ⟨τ, t1, t2, t3⟩ := threads_abs (dv := dv) T n hown
  rw [h] at t1
  cases t1
  have hown' : ∀ i, Respects id (Spec.Has L σ) own i (if i < n then T i else .ret ()) := by
    intro i
    by_cases hi : i < n
    · rw [if_pos hi]; exact hown i hi
    · rw [if_neg hi]; trivial
  have hex := fun sched => Share.exec_ok (rd := Share.Arr.rd L) (wr := Share.Arr.wr L) (loc := id) (inside := Spec.Has L σ)
    (I := fun w val => ∃ τ, ArrR L w τ ∧ Shape σ τ ∧ val = valA dv τ)
    (fun w val p hI hp => by
      obtain ⟨τ, h1, h2, rfl⟩ := hI
      replace hp : Spec.Has L σ p := hp
      obtain ⟨w', k1, -⟩ := arr_step_refines hL dv h1 (peek_abs (dv := dv) (h2.has hp))
      simp only [Share.Arr.rd, id, k1])
    (fun w val p v hI hp => by
      obtain ⟨τ, h1, h2, rfl⟩ := hI
      replace hp : Spec.Has L σ p := hp
      obtain ⟨τ1, e1, e2, e3⟩ := poke_abs (dv := dv) (h2.has hp) v
      obtain ⟨w', k1, k2⟩ := arr_step_refines hL dv h1 e1
      exact ⟨w', valA dv τ1, by simp only [Share.Arr.wr, k1], ⟨τ1, k2, h2.trans e2, rfl⟩, fun l hl => e3 l (h2.has hl)⟩)
    (σ := valA dv σ) hown' sched (fun _ => 0) (w := w) (val := valA dv σ) ⟨σ, hR, Shape.refl σ, rfl⟩
    (T := fun i => if i < n then T i else .ret ()) (fun _ => rfl) (fun l _ => by cases own l <;> rfl)
  constructor
  · -- a schedule which lets all threads finish
    let sched := (List.range n).flatMap fun i => List.replicate (accesses id (valA dv σ) (T i)) i
    have hcount : ∀ i, i < n → accesses id (valA dv σ) (T i) ≤ sched.count i := by
      intro i hi
      have : List.Sublist (List.replicate (accesses id (valA dv σ) (T i)) i) sched := by
        have hm : i ∈ List.range n := List.mem_range.2 hi
        obtain ⟨l1, l2, e⟩ := List.append_of_mem hm
        simp only [sched, e, List.flatMap_append, List.flatMap_cons]
        exact (List.sublist_append_left _ _).trans (List.sublist_append_right _ _)
      have := this.count_le i
      rwa [List.count_replicate_self] at this
    obtain ⟨w', T', val', k1, k2, k3, k4⟩ := hex sched
    refine ⟨.ok w', sched, ?_⟩
    simp only [Share.Arr.exec, k1]
    refine ⟨fun i => ?_, trivial⟩
    rw [k3 i]
    by_cases hi : i < n
    · rw [if_pos hi, Share.stepAlone_all _ _ _ (by have := hcount i hi; omega)]
    · rw [if_neg hi, Share.stepAlone_all _ _ _ (by simp [accesses])]
  · rintro r ⟨sched, hr⟩
    obtain ⟨w', T', val', k1, ⟨τ', j1, j2, rfl⟩, k3, k4⟩ := hex sched
    simp only [Share.Arr.exec, k1] at hr
    obtain ⟨hret, rfl⟩ := hr
    refine ⟨w', rfl, ArrR.values (dv := dv) j1 (j2.symm.trans t2) fun l hl => ?_⟩
    have hl' : Spec.Has L σ l := j2.symm.has hl
    rw [k4 l hl', t3 l hl']
    cases ho : own l with
    | none => rfl
    | some i =>
      simp only
      have hfin : (stepAlone id)^[0 + sched.count i] (valA dv σ, if i < n then T i else .ret ()) =
          ((alone id (valA dv σ) (if i < n then T i else .ret ())).2, .ret (alone id (valA dv σ) (if i < n then T i else .ret ())).1) := by
        generalize hm : 0 + sched.count i = m
        have hri := hret i
        rw [k3 i, hm] at hri
        rw [← Share.stepAlone_all (loc := id) (valA dv σ) (if i < n then T i else .ret ()) (accesses id (valA dv σ) (if i < n then T i else .ret ()) + m)
          (by omega), Function.iterate_add_apply]
        generalize (stepAlone id)^[m] (valA dv σ, if i < n then T i else .ret ()) = q at hri
        obtain ⟨q1, q2⟩ := q
        simp only at hri
        subst hri
        exact (Function.iterate_fixed rfl _).symm
      rw [hfin]
      by_cases hi : i < n
      · simp only [if_pos hi]
      · simp only [if_neg hi, alone]

/-! ### Programs -/

/-- Lists and arrays correspond. -/
structure R (L : Layout V) (D : World V) (a : Lists V) : Prop where
  host : ArrR L D.host a.host
  dev : ArrR L D.dev a.dev
  buf : D.buf = a.buf

theorem R.init : R L (World.init : World V) Spec.start := ⟨ArrR.init L, ArrR.init L, rfl⟩

theorem sizes_eq {w : ArrWorld V} {σ : ArrSpec.State V} (h : ArrR L w σ) : sizes w = Spec.lengths σ := by
  funext t
  unfold sizes Spec.lengths
  cases e : σ t with
  | none => rw [h.absent e]; rfl
  | some q =>
    obtain ⟨N, l⟩ := q
    obtain ⟨a, ha, hrep⟩ := h.arr e
    rw [ha]
    simp only [Option.map_some, hrep.len]

theorem step_refines (hL : L.WF) (dv : V) {D : World V} {a a' : Lists V} (hR : R L D a) {op : Op V} {out : ArrOut V}
    (h : Spec.step L a op = some (a', out)) : Always (step L D op) fun q => q.2 = out ∧ R L q.1 a' := by
  cases op with
  | host op =>
    obtain ⟨q, h1, h2⟩ := Option.map_eq_some_iff.1 h
    cases h2
    obtain ⟨w', k1, k2⟩ := arr_step_refines hL dv hR.host h1
    exact Always.lift (a := ({ D with host := w' }, q.2)) (by rw [k1]; rfl) ⟨rfl, k2, hR.dev, hR.buf⟩
  | malloc t N =>
    simp only [Spec.step] at h
    simp only [step, hR.buf]
    split at h
    · cases h
      rename_i e
      simp only [e]
      exact Always.pure ⟨rfl, hR.host, hR.dev.rm, rfl⟩
    · cases h
  | free t =>
    simp only [Spec.step] at h
    simp only [step, hR.buf]
    split at h
    · cases h
      rename_i e
      simp only [e]
      exact Always.pure ⟨rfl, hR.host, hR.dev.rm, rfl⟩
    · cases h
  | toDev t s =>
    simp only [Spec.step] at h
    simp only [step, hR.buf]
    split at h
    · rename_i N M l e1 e2
      split at h
      · rename_i hc
        obtain ⟨rfl, hT⟩ := hc
        cases h
        obtain ⟨o, ho, hrep⟩ := hR.host.arr e2
        simp only [e1, ho, hrep.cap, if_true]
        exact Always.pure ⟨rfl, hR.host, hR.dev.upd (hrep.bytewise hT), rfl⟩
      · cases h
    · cases h
  | toHost s t =>
    simp only [Spec.step] at h
    simp only [step]
    split at h
    · rename_i N l0 M l e1 e2
      split at h
      · rename_i hc
        obtain ⟨rfl, hT⟩ := hc
        cases h
        obtain ⟨a0, ha, hrepa⟩ := hR.host.arr e1
        obtain ⟨o, ho, hrep⟩ := hR.dev.arr e2
        simp only [ha, ho, hrep.cap, hrepa.cap, if_true]
        exact Always.pure ⟨rfl, hR.host.upd (hrep.bytewise hT), hR.dev, hR.buf⟩
      · cases h
    · cases h
  | copyDev t t' =>
    simp only [Spec.step] at h
    simp only [step, hR.buf]
    split at h
    · rename_i N M l e1 e2
      split at h
      · rename_i hc
        obtain ⟨rfl, hT⟩ := hc
        cases h
        obtain ⟨o, ho, hrep⟩ := hR.dev.arr e2
        simp only [e1, ho, hrep.cap, if_true]
        exact Always.pure ⟨rfl, hR.host, hR.dev.upd (hrep.bytewise hT), rfl⟩
      · cases h
    · cases h
  | one p =>
    obtain ⟨q, h1, h2⟩ := Option.map_eq_some_iff.1 h
    cases h2
    obtain ⟨w', k1, k2⟩ := client_refines hL dv p hR.dev h1
    exact Always.lift (a := ({ D with dev := w' }, .unit)) (by rw [k1]; rfl) ⟨rfl, hR.host, k2, hR.buf⟩
  | many g b T =>
    simp only [Spec.step] at h
    split at h
    · rename_i hT
      obtain ⟨σ', h1, h2⟩ := Option.map_eq_some_iff.1 h
      cases h2
      simp only [step, sizes_eq hR.dev]
      exact (runThreads_always hL dv hR.dev hT h1).bind fun w' hw' => Always.pure ⟨rfl, hR.host, hw', hR.buf⟩
    · cases h

/-- The program respects the contracts, and ends with lists `a` and result `r`. -/
noncomputable def allowed (L : Layout V) : Prog (Op V) (ArrOut V) ρ → Lists V → Option (Lists V × ρ)
  | .ret r, a => some (a, r)
  | .call op k, a =>
    match Spec.step L a op with
    | none => none
    | some (a', out) => allowed L (k out) a'

theorem exec_refines (hL : L.WF) (dv : V) : ∀ (p : Prog (Op V) (ArrOut V) ρ) {D : World V} {a a' : Lists V} {r : ρ}, R L D a →
    allowed L p a = some (a', r) → Always (p.execND (step L) D) fun q => q.2 = r ∧ R L q.1 a'
  | .ret r', D, a, a', r, hR, h => by cases h; exact Always.pure ⟨rfl, hR⟩
  | .call op k, D, a, a', r, hR, h => by
    simp only [allowed] at h
    cases e : Spec.step L a op with
    | none => rw [e] at h; cases h
    | some q =>
      rw [e] at h
      refine (step_refines hL dv hR e).bind fun q' hq => ?_
      rw [hq.1]
      exact exec_refines hL dv (k q.2) hq.2 h

/-- C88: programs of the host which copy soa_arrays of structs with trivial members to the device and back, and run kernels on them, get what
    plain lists give, for all schedules of the threads: client code which chooses its calls by what it observed, kernels of one thread which
    change the sizes, and kernels of many threads without races. Missing: structs with non-trivial members (`C88_false_bytes`), and
    kernels which exceed the capacity or take elements from empty arrays (`C88_false_push`, `C88_false_pop`). -/
theorem C88_partial (hL : L.WF) (dv : V) (p : Prog (Op V) (ArrOut V) ρ) {a : Lists V} {x : ρ} (hp : allowed L p Spec.start = some (a, x)) :
    (∃ r, p.execND (step L) World.init r) ∧
    ∀ r, p.execND (step L) World.init r → ∃ D, r = .ok (D, x) ∧
      (∀ s N l, a.host s = some (N, l) → Props.ListIs L D.host s N l) ∧ (∀ s N l, a.dev s = some (N, l) → Props.ListIs L D.dev s N l) ∧
      (∀ s, a.host s = none → D.host.a s = none) ∧ D.buf = a.buf := by
  have := exec_refines hL dv p R.init hp
  refine ⟨this.1, fun r hr => ?_⟩
  obtain ⟨q, h1, h2, h3⟩ := this.2 r hr
  refine ⟨q.1, by rw [h1, ← h2], fun s N l h => ?_, fun s N l h => ?_, fun s h => h3.host.absent h, h3.buf⟩
  · obtain ⟨o, ho, hrep⟩ := h3.host.arr h
    exact Props.ListIs.of_rep hL ho hrep
  · obtain ⟨o, ho, hrep⟩ := h3.dev.arr h
    exact Props.ListIs.of_rep hL ho hrep

/-- States of programs which respect the contracts. -/
def Reachable (L : Layout V) (D : World V) : Prop :=
  ∃ (p : Prog (Op V) (ArrOut V) Unit) (a : Lists V), allowed L p Spec.start = some (a, ()) ∧ p.execND (step L) World.init (.ok (D, ()))

/-- A program: an array of capacity 5 with three elements, sent to the device, where one thread appends a copy of the element before the last
    one, which is changed in one member, and back again. Yields the size and the last element. -/
def demoProg (c t : Cell Int) : Prog (Op Int) (ArrOut Int) (Option Nat × List (Cell Int)) :=
  .call (.host (.new 0 5 3 c)) fun _ => .call (.malloc 7 5) fun _ => .call (.toDev 7 0) fun _ =>
  .call (.one (.call (.size 7) fun
    | .nat n => .call (.get 7 ((n : Int) - 2) t) fun
      | .cells [d] => .call (.push 7 (d.set 1 1 42)) fun _ => .ret ()
      | _ => .ret ()
    | _ => .ret ())) fun _ =>
  .call (.toHost 0 7) fun _ => .call (.free 7) fun _ => .call (.host (.size 0)) fun
    | .nat n => .call (.host (.back 0 t)) fun
      | .cells l => .ret (some n, l)
      | _ => .ret (none, [])
    | _ => .ret (none, [])

example (c t : Cell Int) : ∃ r, (demoProg c t).execND (step Props.plainL) World.init r := by
  refine (C88_partial Props.plainL_WF 0 (demoProg c t) (a := ?_) (x := ?_) ?_).1
  rotate_left 2
  · rfl

example (c t : Cell Int) {D : World Int} {x : Option Nat × List (Cell Int)}
    (h : (demoProg c t).execND (step Props.plainL) World.init (.ok (D, x))) :
    x = (some 4, [overlay Props.plainL ((overlay Props.plainL c t).set 1 1 42) t]) ∧ D.buf 7 = none := by
  have hp : ∃ a, allowed Props.plainL (demoProg c t) Spec.start = some (a, some 4, [overlay Props.plainL ((overlay Props.plainL c t).set 1 1 42) t]) ∧
      a.buf 7 = none := ⟨_, rfl, rfl⟩
  obtain ⟨a, hp, hb⟩ := hp
  obtain ⟨D', e, -, -, -, h4⟩ := (C88_partial Props.plainL_WF 0 (demoProg c t) hp).2 _ h
  cases e
  exact ⟨rfl, by rw [h4]; exact hb⟩

theorem Reachable.rel (hL : L.WF) (dv : V) {D : World V} (h : Reachable L D) : ∃ a, R L D a := by
  obtain ⟨p, a, h1, h2⟩ := h
  obtain ⟨q, e, -, h3⟩ := (exec_refines hL dv p R.init h1).2 _ h2
  cases e
  exact ⟨a, h3⟩

/-- C88 is false of kernels which append to full arrays: unlike on the host nothing checks the capacity, and the storage is overrun. -/
theorem C88_false_push (hL : L.WF) (dv : V) (hne : L ≠ []) {D : World V} (hD : Reachable L D) {t N : Nat} {l : List (Cell V)}
    (ht : Props.ListIs L D.dev t N l) (hfull : l.length = N) (c : Cell V) (k : ArrOut V → Prog (ArrOp V) (ArrOut V) Unit) :
    ∃ u, ∀ r, step L D (.one (.call (.push t c) k)) r ↔ r = .error u := by
  obtain ⟨a, hR⟩ := hD.rel hL dv
  obtain ⟨o, ho, h1, h2⟩ := ht.exists
  cases e : a.dev t with
  | none => rw [hR.dev.absent e] at ho; cases ho
  | some q =>
    obtain ⟨o', ho', hrep⟩ := hR.dev.arr (N := q.1) (l := q.2) e
    rw [ho] at ho'
    cases ho'
    have hn : o.n = o.N := by rw [h2, hfull, ← h1]
    obtain ⟨u, hu⟩ := Props.setCell_behind hL hne (N := o.N) (b := o.data) (by rw [hrep.size, hrep.cap]) c
    have e1 : (SArr.accSz o.N o.n).setCell L c o.data = .error u := by
      unfold SArr.accSz
      rw [hn, toInt32_small (by rw [hrep.cap]; exact hrep.int)]
      exact hu
    refine ⟨u, fun r => ?_⟩
    simp only [step, Prog.exec, call, ArrWorld.withA, ho, push, e1, ND.lift]
    rfl

/-- C88 is false of kernels which take elements from empty arrays: the size becomes 2^64 - 1, unnoticed. -/
theorem C88_false_pop {D : World V} {t N : Nat} (ht : Props.ListIs L D.dev t N ([] : List (Cell V))) :
    ∃ D', (∀ r, step L D (.one (.call (.pop t) fun _ => .ret ())) r ↔ r = .ok (D', .unit)) ∧
      D'.dev.step L (.size t) = .ok (D'.dev, .nat (2 ^ 64 - 1)) := by
  obtain ⟨o, ho, h1, h2⟩ := ht.exists
  refine ⟨{ D with dev := ⟨ArrWorld.upd D.dev.a t (some (pop o)), D.dev.gone⟩ }, fun r => ?_, ?_⟩
  · simp only [step, Prog.exec, call, ArrWorld.withA, ho, ND.lift]
    rfl
  · have : o.n = 0 := h2
    simp only [ArrWorld.step, ArrWorld.withA, ArrWorld.upd, if_true, pop, this]
    rfl

/-- A full array on the device, and an empty one. -/
theorem demo_device (c : Cell Int) : ∃ D : World Int, Reachable Props.plainL D ∧ Props.ListIs Props.plainL D.dev 7 2 [c, c] ∧
    Props.ListIs Props.plainL D.dev 8 3 [] := by
  have hp : ∃ a, allowed Props.plainL (.call (.host (.new 0 2 2 c)) fun _ => .call (.malloc 7 2) fun _ => .call (.toDev 7 0) fun _ =>
      .call (.host (.new 1 3 0 c)) fun _ => .call (.malloc 8 3) fun _ => .call (.toDev 8 1) fun _ => .ret ())
      Spec.start = some (a, ()) ∧ a.dev 7 = some (2, [c, c]) ∧ a.dev 8 = some (3, []) := ⟨_, rfl, rfl, rfl⟩
  obtain ⟨a, hp, ha, hb⟩ := hp
  obtain ⟨⟨r, hr⟩, hall⟩ := C88_partial Props.plainL_WF 0 _ hp
  obtain ⟨D, rfl, -, h2, -⟩ := hall r hr
  exact ⟨D, ⟨_, a, hp, hr⟩, h2 7 2 _ ha, h2 8 3 _ hb⟩

example (c : Cell Int) (k : ArrOut Int → Prog (ArrOp Int) (ArrOut Int) Unit) :
    ∃ D : World Int, ∃ u, ∀ r, step Props.plainL D (.one (.call (.push 7 c) k)) r ↔ r = .error u := by
  obtain ⟨D, h, h7, -⟩ := demo_device c
  exact ⟨D, C88_false_push Props.plainL_WF 0 (by decide) h h7 rfl c k⟩

example (c : Cell Int) : ∃ D D' : World Int, (∀ r, step Props.plainL D (.one (.call (.pop 8) fun _ => .ret ())) r ↔ r = .ok (D', .unit)) ∧
    D'.dev.step Props.plainL (.size 8) = .ok (D'.dev, .nat (2 ^ 64 - 1)) := by
  obtain ⟨D, h, -, h8⟩ := demo_device c
  obtain ⟨D', e⟩ := C88_false_pop h8
  exact ⟨D, D', e⟩

/-- C88 is false of structs with a non-trivial member: what comes back from the device are bytes, not objects, which the destructor then
    destroys. -/
theorem C88_false_bytes (hL : L.WF) (hnt : ∃ m ∈ L, m.ty.triv = false) {D : World V} {s t N : Nat} {l : List (Cell V)} (hN : 0 < N)
    (hs : Props.ListIs L D.host s N l) (ht : D.buf t = some N) :
    ∃ D1 D2 u, (∀ r, step L D (.toDev t s) r ↔ r = .ok (D1, .unit)) ∧ (∀ r, step L D1 (.toHost s t) r ↔ r = .ok (D2, .unit)) ∧
      ∀ r, step L D2 (.host (.destroy s)) r ↔ r = .error u := by
  obtain ⟨o, ho, h1, h2⟩ := hs.exists
  obtain ⟨u, hu⟩ := Props.dtor_bytes hL hnt (n := o.n) (N := o.N) (show 0 < o.N by omega) o.data.bytes
  refine ⟨{ D with dev := ⟨ArrWorld.upd D.dev.a t (some (memcpy o)), D.dev.gone⟩ },
    ⟨⟨ArrWorld.upd D.host.a s (some (memcpy (memcpy o))), D.host.gone⟩, ⟨ArrWorld.upd D.dev.a t (some (memcpy o)), D.dev.gone⟩, D.buf⟩, u,
    fun r => ?_, fun r => ?_, fun r => ?_⟩
  · simp only [step, ht, ho, h1, if_true]; rfl
  · simp only [step, ho, ArrWorld.upd, if_true, memcpy]; rfl
  · simp only [step, ArrWorld.step, ArrWorld.withA, ArrWorld.upd, if_true, memcpy, hu, ND.lift]; rfl

example : ∃ D D1 D2 : World Int, ∃ u, (∀ r, step demoL D (.toDev 7 0) r ↔ r = .ok (D1, .unit)) ∧
    (∀ r, step demoL D1 (.toHost 0 7) r ↔ r = .ok (D2, .unit)) ∧ ∀ r, step demoL D2 (.host (.destroy 0)) r ↔ r = .error u := by
  have hp : ∃ a, allowed demoL (.call (.host (.new 0 2 2 demoCell)) fun _ => .call (.malloc 7 2) fun _ => .ret ())
      Spec.start = some (a, ()) ∧ a.host 0 = some (2, [demoCell, demoCell]) ∧ a.buf 7 = some 2 := ⟨_, rfl, rfl, rfl⟩
  obtain ⟨a, hp, ha, hb⟩ := hp
  obtain ⟨⟨r, hr⟩, hall⟩ := C88_partial demoL_WF 0 _ hp
  obtain ⟨D, rfl, h1, -, -, h4⟩ := hall r hr
  exact ⟨D, C88_false_bytes demoL_WF ⟨⟨⟨32, false⟩, none, -1⟩, by simp [demoL], rfl⟩ (by decide) (h1 0 2 _ ha) (by rw [h4]; exact hb)⟩

/-! ### A kernel which changes each element -/

/-- `int index = blockDim.x * blockIdx.x + threadIdx.x; if (index >= array->size()) return; T cell = …; (*array)[index] >> cell; cell = f(index, cell);
    (*array)[index] << cell;` (test/soa_array_cuda_test.cu:72-83). -/
def mapKernel (L : Layout V) (t : Nat) (f : Nat → Cell V → Cell V) (c0 : Nat → Cell V) (sz : Nat → Option Nat) (i : Nat) : Share.Prog Loc V Unit :=
  match sz t with
  | some n =>
    if i < n then
      Share.Arr.take t i (fun c => Share.Arr.put t i (f i c) (.ret ()) (Share.Arr.keys L 0)) (Share.Arr.keys L 0) (c0 i)
    else .ret ()
  | none => .ret ()

/-- C88, example: a kernel with at least as many threads as there are elements applies a function to each of them, however its threads are
    scheduled; nothing else changes. Missing: as in `C88_partial`. -/
theorem C88_map_partial (hL : L.WF) (dv : V) {D : World V} (hD : Reachable L D) {t N : Nat} {l : List (Cell V)}
    (ht : Props.ListIs L D.dev t N l) (f : Nat → Cell V → Cell V) (c0 : Nat → Cell V) {g b : Nat} (hg : g < 2 ^ 31) (hb : b ≤ 1024)
    (hcover : l.length ≤ g * b) :
    Always (step L D (.many g b (mapKernel L t f c0))) fun q =>
      Props.ListIs L q.1.dev t N (l.mapIdx fun j c => f j (overlay L c (c0 j))) ∧
      (∀ s N' l', s ≠ t → Props.ListIs L D.dev s N' l' → Props.ListIs L q.1.dev s N' l') ∧
      (∀ s N' l', Props.ListIs L D.host s N' l' → Props.ListIs L q.1.host s N' l') := by
  obtain ⟨a, hR⟩ := hD.rel hL dv
  obtain ⟨o, ho, o1, o2⟩ := ht.exists
  cases e : a.dev t with
  | none => rw [hR.dev.absent e] at ho; cases ho
  | some q =>
  obtain ⟨N0, x⟩ := q
  obtain ⟨o', ho', hrep⟩ := hR.dev.arr e
  rw [ho] at ho'
  cases ho'
  obtain ⟨rfl, hlen, hag⟩ := ht.agree (Props.ListIs.of_rep hL ho hrep)
  have hn : threadsOf g b = g * b := by
    unfold threadsOf
    rw [if_pos]
    simp only [Launchable, Bool.and_eq_true, decide_eq_true_eq]
    omega
  have hT : ∀ i, mapKernel L t f c0 (Spec.lengths a.dev) i = if i < x.length then
      Share.Arr.take t i (fun c => Share.Arr.put t i (f i c) (.ret ()) (Share.Arr.keys L 0)) (Share.Arr.keys L 0) (c0 i) else .ret () := by
    intro i
    simp only [mapKernel, Spec.lengths, e, Option.map_some]
  have hkeys : ∀ {r k}, (r, k) ∈ Share.Arr.keys L 0 ↔ ∃ m, L[r]? = some m ∧ k < m.elems := fun {r k} => by
    rw [Share.Arr.mem_keys]; simp
  have hin : ∀ j, j < x.length → ∀ r k, (r, k) ∈ Share.Arr.keys L 0 → Spec.Has L a.dev ⟨t, (j : Nat), r, k⟩ := by
    intro j hj r k h
    obtain ⟨m, h1, h2⟩ := hkeys.1 h
    exact ⟨N, x, m, e, h1, h2, by simp, by simpa using hj⟩
  let own : Loc → Option Nat := fun q => if q.s = t ∧ 0 ≤ q.i ∧ q.i < x.length then some q.i.toNat else none
  have hown : ∀ j, j < x.length → ∀ r k, own ⟨t, (j : Nat), r, k⟩ = some j := by
    intro j hj r k
    simp [own, hj]
  have hresp : ∀ i, i < threadsOf g b → Respects id (Spec.Has L a.dev) own i (mapKernel L t f c0 (Spec.lengths a.dev) i) := by
    intro j _
    rw [hT]
    by_cases hj : j < x.length
    · rw [if_pos hj]
      exact Share.Arr.respects_take _ _ (fun r k h => ⟨hin j hj r k h, Or.inr (hown j hj r k)⟩) fun c =>
        Share.Arr.respects_put _ _ (fun r k h => ⟨hin j hj r k h, hown j hj r k⟩) trivial
    · rw [if_neg hj]
      trivial
  obtain ⟨τ, k1, k2, k3⟩ := threads_abs (dv := dv) _ _ hresp
  have hstep : Spec.step L a (.many g b (mapKernel L t f c0)) = some ({ a with dev := τ }, .unit) := by
    simp only [Spec.step]
    rw [if_pos ⟨own, hresp⟩, k1]
    rfl
  refine (step_refines hL dv hR hstep).mono fun q hq => ⟨?_, fun s N' l' hne h' => ?_, fun s N' l' h' => ?_⟩
  · obtain ⟨y, y1, y2⟩ := k2.arr e
    obtain ⟨o', ho', hrep'⟩ := hq.2.dev.arr y1
    refine (Props.ListIs.of_rep hL ho' hrep').congr (by simp [y2, hlen]) fun i c c' hc hc' t' => ?_
    rw [List.getElem?_mapIdx] at hc'
    obtain ⟨d, hd, rfl⟩ := Option.map_eq_some_iff.1 hc'
    have hiy := (List.getElem?_eq_some_iff.1 hc).1
    have hix : i < x.length := by omega
    have hx := hag i d x[i] hd (List.getElem?_eq_getElem hix)
    funext r k
    unfold overlay
    cases hr : L[r]? with
    | none => rfl
    | some m =>
      simp only
      by_cases hk : k < m.elems
      · rw [if_pos hk, if_pos hk]
        have hm : (r, k) ∈ Share.Arr.keys L 0 := hkeys.2 ⟨m, hr, hk⟩
        have := k3 _ (hin i hix r k hm)
        rw [hown i hix r k] at this
        simp only [valA, y1, Int.toNat_natCast, hc, Option.map_some, Option.getD_some] at this
        rw [this, if_pos (by rw [hn]; omega), hT, if_pos hix, Share.Arr.alone_take, Share.Arr.alone_put]
        simp only [alone, hm, and_self, if_true]
        have hx' : (fun r k => if (r, k) ∈ Share.Arr.keys L 0 then valA dv a.dev ⟨t, (i : Nat), r, k⟩ else c0 i r k) = overlay L x[i] (c0 i) := by
          funext r k
          unfold overlay
          by_cases hm : (r, k) ∈ Share.Arr.keys L 0
          · obtain ⟨m, h1, h2⟩ := hkeys.1 hm
            rw [if_pos hm, h1]
            simp only [if_pos h2, valA, e, Int.toNat_natCast, List.getElem?_eq_getElem hix, Option.map_some, Option.getD_some]
          · rw [if_neg hm]
            cases h1 : L[r]? with
            | none => rfl
            | some m =>
              simp only
              rw [if_neg fun h2 => hm (hkeys.2 ⟨m, h1, h2⟩)]
        rw [hx', ← hx]
        rfl
      · rw [if_neg hk, if_neg hk]
  · obtain ⟨o', ho', -⟩ := h'.exists
    cases e' : a.dev s with
    | none => rw [hR.dev.absent e'] at ho'; cases ho'
    | some q' =>
      obtain ⟨M, z⟩ := q'
      obtain ⟨o2, ho2, hrep2⟩ := hR.dev.arr e'
      obtain ⟨rfl, hlen', hag'⟩ := h'.agree (Props.ListIs.of_rep hL ho2 hrep2)
      obtain ⟨y, y1, y2⟩ := k2.arr e'
      obtain ⟨o3, ho3, hrep3⟩ := hq.2.dev.arr y1
      refine (Props.ListIs.of_rep hL ho3 hrep3).congr (by omega) fun i c c' hc hc' t' => ?_
      have hiy := (List.getElem?_eq_some_iff.1 hc).1
      have hiz : i < z.length := by omega
      rw [hag' i c' z[i] hc' (List.getElem?_eq_getElem hiz)]
      funext r k
      unfold overlay
      cases hr : L[r]? with
      | none => rfl
      | some m =>
        simp only
        by_cases hk : k < m.elems
        · rw [if_pos hk, if_pos hk]
          have := k3 ⟨s, (i : Nat), r, k⟩ ⟨N', z, m, e', hr, hk, by simp, by simpa using hiz⟩
          have ho : own ⟨s, (i : Nat), r, k⟩ = none := by simp [own, hne]
          rw [ho] at this
          simpa only [valA, y1, e', Int.toNat_natCast, hc, List.getElem?_eq_getElem hiz, Option.map_some, Option.getD_some] using this
        · rw [if_neg hk, if_neg hk]
  · obtain ⟨o', ho', -⟩ := h'.exists
    cases e' : a.host s with
    | none => rw [hR.host.absent e'] at ho'; cases ho'
    | some q' =>
      obtain ⟨M, z⟩ := q'
      obtain ⟨o2, ho2, hrep2⟩ := hR.host.arr e'
      obtain ⟨rfl, hlen', hag'⟩ := h'.agree (Props.ListIs.of_rep hL ho2 hrep2)
      obtain ⟨o3, ho3, hrep3⟩ := hq.2.host.arr e'
      exact (Props.ListIs.of_rep hL ho3 hrep3).congr hlen'.symm fun i c c' hc hc' t' => (hag' i c' c hc' hc t').symm

/-- Three threads per element, in any order. -/
example (c : Cell Int) : ∃ D : World Int, Reachable Props.plainL D ∧ Props.ListIs Props.plainL D.dev 7 5 [c, c, c] ∧
    Always (step Props.plainL D (.many 3 3 (mapKernel Props.plainL 7 (fun i d => d.set 0 0 (d 0 0 + i)) fun _ => c))) fun q =>
      Props.ListIs Props.plainL q.1.dev 7 5 ([c, c, c].mapIdx fun j d => (overlay Props.plainL d c).set 0 0 (overlay Props.plainL d c 0 0 + j)) := by
  obtain ⟨D, h1, h2⟩ : ∃ D : World Int, Reachable Props.plainL D ∧ Props.ListIs Props.plainL D.dev 7 5 [c, c, c] := by
    have hp : ∃ a, allowed Props.plainL (.call (.host (.new 0 5 3 c)) fun _ => .call (.malloc 7 5) fun _ => .call (.toDev 7 0) fun _ => .ret ())
        Spec.start = some (a, ()) ∧ a.dev 7 = some (5, [c, c, c]) := ⟨_, rfl, rfl⟩
    obtain ⟨a, hp, ha⟩ := hp
    obtain ⟨⟨r, hr⟩, hall⟩ := C88_partial Props.plainL_WF 0 _ hp
    obtain ⟨D, rfl, -, h2, -⟩ := hall r hr
    exact ⟨D, ⟨_, a, hp, hr⟩, h2 7 5 _ ha⟩
  exact ⟨D, h1, h2, (C88_map_partial Props.plainL_WF 0 h1 h2 (fun i d => d.set 0 0 (d 0 0 + i)) (fun _ => c) (by decide) (by decide)
    (by simp)).mono fun q hq => hq.1⟩

end DevArr
end LFA
