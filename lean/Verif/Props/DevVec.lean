import Verif.DevVecRefine
import Verif.Props.DevClients

/-
  Vectors in device memory (soa_vector<T, cuda_allocator<char>, true>): what works, and that they can never be enlarged.
-/
set_option linter.unusedSectionVars false
namespace LFA
namespace Dev
open ND
open LFA.World (upd)
variable {V : Type} [DecidableEq V] {C : Cfg V} {dv : V} {ρ : Type}

/-- No memory is left without vectors. -/
theorem VDR.empty {W : VecWorld V} {σ : VecSpec.State V} (h : VDR C W σ) (hn : ∀ s, W.n s = none) :
    (∀ id, W.D.w.h.blk id = none) ∧ (∀ q, W.D.cs.heap q = none) ∧ ∀ q, W.D.rs.heap q = none := by
  have hg : ∀ s, W.D.w.g s = none := by
    intro s
    cases s with
    | zero => exact h.tmp
    | succ s =>
      have := h.sync s
      rw [hn s] at this
      cases hg : W.D.w.g (s + 1) with
      | none => rfl
      | some g => rw [hg] at this; cases this
  have ha : ∀ s, alive W.D s = false := fun s => by simp [alive, hg s]
  refine ⟨fun id => ?_, h.frame.cells.empty ha, h.frame.raw.empty ha⟩
  cases hb : W.D.w.h.blk id with
  | none => rfl
  | some b =>
    obtain ⟨s, v, e, _⟩ := h.host.live id b hb
    simp [view, hg (s + 1)] at e

/-- C87 for all clients, whose calls may depend on what the previous ones returned: there is an outcome, no outcome is undefined
    behaviour, each is one which the sequences of elements allow, and if it leaves no vector it leaves no device memory.

    Missing: everything which gets another buffer (`VecPre` excludes it, see `C87_false_reserve`, `C87_false_resize` and
    `C87_false_push`), and the constructor should set all elements (`VecPost` says that it sets the first one, see `C87_false_fill`). -/
theorem C87_partial (hL : C.L.WF) (htr : ∀ m ∈ C.L, m.ty.triv = true) (h1 : OneD C.tr) (p : Prog (VecOp V) (ArrOut V) ρ)
    (hp : p.Safe (VecPre C dv) (VecPost C dv) VecSpec.start) :
    (∃ r, p.execND (VecWorld.step C) VecWorld.init r) ∧
    ∀ r, p.execND (VecWorld.step C) VecWorld.init r → ∃ W x σ, r = .ok (W, x) ∧ p.Allows (VecPost C dv) VecSpec.start x σ ∧
      ((∀ s, W.n s = none) → (∀ id, W.D.w.h.blk id = none) ∧ (∀ q, W.D.cs.heap q = none) ∧ ∀ q, W.D.rs.heap q = none) := by
  have := Prog.execND_refines (R := VDR C) (fun op hR h => vstep_all hL htr h1 dv hR op h) p (VDR.init (C := C)) hp
  refine ⟨this.1, fun r hr => ?_⟩
  obtain ⟨q, h1, σ, h2, h3⟩ := this.2 r hr
  exact ⟨q.1, q.2, σ, h1, h2, fun h => h3.empty h⟩

/-! ### Enlarging a vector is undefined behaviour -/

/-- All outcomes are undefined behaviour. -/
def Fails {α : Type} (m : ND α) (u : UB) : Prop := (∃ r, m r) ∧ ∀ r, m r → r = .error u

theorem Fails.ub {α : Type} (u : UB) : Fails (ND.ub u : ND α) u := ⟨⟨_, rfl⟩, fun _ h => h⟩

theorem _root_.LFA.ND.Always.fails {α β : Type} {m : ND α} {f : α → ND β} {P : α → Prop} {u : UB} (h : Always m P) (hf : ∀ a, P a → Fails (f a) u) :
    Fails (m >>= f) u := by
  constructor
  · obtain ⟨r, hr⟩ := h.1
    obtain ⟨a, rfl, ha⟩ := h.2 r hr
    obtain ⟨r', hr'⟩ := (hf a ha).1
    exact ⟨r', _, hr, hr'⟩
  · rintro r ⟨r1, hr1, h2⟩
    obtain ⟨a, rfl, ha⟩ := h.2 r1 hr1
    exact (hf a ha).2 r h2

theorem Fails.bind {α β : Type} {m : ND α} {f : α → ND β} {u : UB} (h : Fails m u) : Fails (m >>= f) u := by
  constructor
  · obtain ⟨r, hr⟩ := h.1
    have := h.2 r hr
    subst this
    exact ⟨_, _, hr, rfl⟩
  · rintro r ⟨r1, hr1, h2⟩
    have := h.2 r1 hr1
    subst this
    exact h2

theorem reserve_fails (hL : C.L.WF) (h1 : OneD C.tr) (dv : V) {W : VecWorld V} {σ : VecSpec.State V} (hR : VDR C W σ) {s m : Nat}
    {a : AVec V} (hs : σ s = some a) (hk : a.known = true) (hpos : 0 < a.ext) (hagg : 0 < aggSize C.L) {e : Ext}
    (hsel : selectSizes C.tr ⟨m, 1, 1⟩ = .ok e) (he : e.x < 2 ^ 31) : Fails (VecWorld.reserve C W s m) .oob := by
  obtain ⟨g, k1, k2, k3⟩ := hR.vec hs
  obtain ⟨ng, h0, ng', h', new, r1, r2, r3, r4, r5, r6, r7⟩ := reserve_grid hL h1 hR.host.fresh hsel dv
  obtain ⟨ng2, h2, n1, -, -, n4⟩ := new_vec hL h1 dv hR.host.fresh hsel
  rw [r1] at n1
  simp only [Res.ok.injEq, Prod.mk.injEq, true_and] at n1
  obtain ⟨rfl, rfl⟩ := n1
  have hm : m ≤ e.x := (selectSizes_fits hsel).1
  unfold VecWorld.reserve
  refine (count_ok k2).fails fun _ _ => ?_
  refine (frame_new hL hR.frame hR.tmp (launch1 (Nat.lt_of_le_of_lt hm he)) r1 n4.dim).fails ?_
  rintro ⟨⟨w, cs, rs⟩, out⟩ ⟨rfl, q2, q3⟩
  simp only at q2
  subst q2
  refine (extentX_ok (s := 0) (g := ng) (by simp [upd]) r2).fails ?_
  rintro _ rfl
  refine (frame_resize hL q3 (s := 0) (g := ng) (by simp [upd]) (launch1 he) r3 r7.1).fails ?_
  rintro ⟨⟨w, cs, rs⟩, out⟩ ⟨rfl, q4, q5⟩
  simp only at q4
  subst q4
  refine (extentX_ok (s := s + 1) (g := g) (by simp [upd, k1]) (k3.ex hk)).fails ?_
  rintro _ rfl
  rw [if_neg (Nat.mul_ne_zero (by omega) (by omega))]
  exact Fails.ub _

/-- There are no copies, so each vector knows its extent. -/
theorem known_post {σ σ' : VecSpec.State V} {op : VecOp V} {out : ArrOut V} (hk : ∀ s a, σ s = some a → a.known = true)
    (hp : VecPre C dv σ op) (h : VecPost C dv σ op σ' out) : ∀ s a, σ' s = some a → a.known = true := by
  have key : ∀ {s : Nat} {x : Option (AVec V)}, (∀ a, x = some a → a.known = true) → ∀ t a, upd σ s x t = some a → a.known = true := by
    intro s x hx t a ht
    by_cases h : t = s
    · subst h; rw [upd_self] at ht; exact hx a ht
    · rw [upd_ne _ _ h] at ht; exact hk t a ht
  have onv : ∀ {s : Nat} {f : AVec V → Option (AVec V × ArrOut V)}, (∀ a a' o, f a = some (a', o) → a'.known = a.known) →
      VecSpec.onVec σ s f = some (σ', out) → ∀ s a, σ' s = some a → a.known = true := by
    intro s f hf hv
    obtain ⟨a, a', h1, h2, rfl⟩ := onVec_some hv
    exact key fun b hb => by cases hb; rw [hf a _ _ h2]; exact hk s a h1
  cases op with
  | new s n =>
    simp only [VecPost, VecSpec.step, VecSpec.create] at h
    split at h
    · cases h
    · split at h
      · cases h; exact hk
      · cases h; exact key fun a ha => by cases ha; rfl
  | newFill s n c =>
    rcases h with ⟨e, _, rfl, _⟩ | ⟨e, _, _, rfl⟩
    · exact hk
    · exact key fun a ha => by cases ha; rfl
  | copy s t => exact absurd trivial hp.2.1
  | assign s t => exact absurd trivial hp.2.1
  | reserve s m =>
    cases hsel : selectSizes C.tr ⟨m, 1, 1⟩ with
    | ok e => exact absurd ⟨e, hsel⟩ hp.2.1
    | error e => exact onv (fun a a' o hf => by simp only [VecSpec.reserve, hsel] at hf; cases hf; rfl) h
  | destroy s =>
    simp only [VecPost, VecSpec.step] at h
    split at h
    · cases h; exact key fun a ha => nomatch ha
    · cases h
  | get s i t =>
    obtain ⟨t', h⟩ := h
    refine onv (fun a a' o hf => ?_) h
    cases hc : a.cells i with
    | none => rw [hc] at hf; cases hf
    | some c => rw [hc] at hf; cases hf; rfl
  | push s c =>
    obtain ⟨a, a', h1, h2, rfl⟩ := onVec_some h
    by_cases hne : a.n = a.ext
    · cases hsel : selectSizes C.tr ⟨grow a.n, 1, 1⟩ with
      | ok e => exact absurd ⟨a, e, h1, hne, hsel⟩ hp.2.1
      | error e =>
        simp only [VecSpec.push, if_pos hne, VecSpec.reserve, hsel] at h2
        split at h2
        · rename_i hk'
          cases h2; exact key fun b hb => by cases hb; exact hk'
        · cases h2
    simp only [VecSpec.push, if_neg hne] at h2
    split at h2
    · rename_i hk'
      split at h2
      · cases h2; exact key fun b hb => by cases hb; exact hk'
      · cases h2
    · cases h2
  | resize s m =>
    obtain ⟨a, a', h1, h2, rfl⟩ := onVec_some h
    by_cases hne : m > a.dim
    · cases hsel : selectSizes C.tr ⟨m, 1, 1⟩ with
      | ok e => exact absurd ⟨a, e, h1, hne, hsel⟩ hp.2.1
      | error e =>
        simp only [VecSpec.resize, if_pos hne, VecSpec.reserve, hsel] at h2
        cases h2
        exact key fun b hb => by cases hb; exact hk s a h1
    simp only [VecSpec.resize, if_neg hne] at h2
    cases h2
    exact key fun b hb => by cases hb; exact hk s a h1
  | set s i c => exact onv (fun a a' o hf => by split at hf <;> cases hf; rfl) h
  | pop s td => exact onv (fun a a' o hf => by split at hf <;> cases hf; rfl) h
  | clear s => exact onv (fun a a' o hf => by cases hf; rfl) h
  | size s => exact onv (fun a a' o hf => by cases hf; rfl) h
  | capacity s => exact onv (fun a a' o hf => by cases hf; rfl) h
  | empty s => exact onv (fun a a' o hf => by cases hf; rfl) h
  | poke s x X r k v =>
    refine onv (fun a a' o hf => ?_) h
    split at hf
    · split at hf <;> cases hf; rfl
    · cases hf
  | peek s x X r k =>
    refine onv (fun a a' o hf => ?_) h
    split at hf
    · split at hf <;> cases hf; rfl
    · cases hf

/-- What holds after any client. -/
theorem reachable (hL : C.L.WF) (htr : ∀ m ∈ C.L, m.ty.triv = true) (h1 : OneD C.tr) {p : Prog (VecOp V) (ArrOut V) ρ}
    (hp : p.Safe (VecPre C dv) (VecPost C dv) VecSpec.start) {W : VecWorld V} {x : ρ}
    (hr : p.execND (VecWorld.step C) VecWorld.init (.ok (W, x))) {s n : Nat} {g : Grid} (hn : W.n s = some n)
    (hg : W.D.w.g (s + 1) = some g) (hpos : g.ex ≠ some 0) :
    ∃ σ a, VDR C W σ ∧ σ s = some a ∧ a.known = true ∧ a.n = n ∧ g.dim.x = a.dim ∧ g.ex = some a.ext ∧ 0 < a.ext := by
  have := Prog.execND_refines (R := fun W σ => VDR C W σ ∧ ∀ s a, σ s = some a → a.known = true)
    (fun op hR h => (vstep_all hL htr h1 dv hR.1 op h).mono fun q ⟨σ', k1, k2⟩ => ⟨σ', k1, k2, known_post hR.2 h k1⟩)
    p ⟨VDR.init (C := C), fun _ _ h => nomatch h⟩ hp
  obtain ⟨q, e, σ, _, hR, hk⟩ := this.2 _ hr
  cases e
  cases hs : σ s with
  | none => rw [(hR.absent hs).2] at hn; cases hn
  | some a =>
    obtain ⟨g', k1, k2, k3⟩ := hR.vec hs
    rw [hg] at k1; cases k1
    rw [hn] at k2; cases k2
    have hd : g.dim.x = a.dim := by rw [k3.dim]
    have hx := k3.ex (hk s a hs)
    exact ⟨σ, a, hR, hs, hk s a hs, rfl, hd, hx, Nat.pos_of_ne_zero fun h => hpos (by rw [hx, h])⟩

/-- `reserve()` of a vector in device memory is undefined behaviour, whatever has happened before and however many elements are
    asked for, as long as the vector has got a buffer of at least one byte and the traits support that many elements: the old buffer is passed to `load()` as if it
    was memory of the host. -/
theorem C87_false_reserve (hL : C.L.WF) (htr : ∀ m ∈ C.L, m.ty.triv = true) (h1 : OneD C.tr) (p : Prog (VecOp V) (ArrOut V) ρ)
    (hp : p.Safe (VecPre C dv) (VecPost C dv) VecSpec.start) {W : VecWorld V} {x : ρ}
    (hr : p.execND (VecWorld.step C) VecWorld.init (.ok (W, x))) {s m n : Nat} {g : Grid} {e : Ext} (hn : W.n s = some n)
    (hg : W.D.w.g (s + 1) = some g) (hpos : g.ex ≠ some 0) (hagg : 0 < aggSize C.L)
    (hsel : selectSizes C.tr ⟨m, 1, 1⟩ = .ok e) (he : e.x < 2 ^ 31) : Fails (VecWorld.step C W (.reserve s m)) .oob := by
  obtain ⟨σ, a, k1, k2, k3, k4, k5, k6, k7⟩ := reachable hL htr h1 hp hr hn hg hpos
  exact reserve_fails hL h1 dv k1 k2 k3 k7 hagg hsel he

/-- `resize()` beyond the capacity is undefined behaviour. -/
theorem C87_false_resize (hL : C.L.WF) (htr : ∀ m ∈ C.L, m.ty.triv = true) (h1 : OneD C.tr) (p : Prog (VecOp V) (ArrOut V) ρ)
    (hp : p.Safe (VecPre C dv) (VecPost C dv) VecSpec.start) {W : VecWorld V} {x : ρ}
    (hr : p.execND (VecWorld.step C) VecWorld.init (.ok (W, x))) {s m n : Nat} {g : Grid} {e : Ext} (hn : W.n s = some n)
    (hg : W.D.w.g (s + 1) = some g) (hpos : g.ex ≠ some 0) (hagg : 0 < aggSize C.L) (hm : g.dim.x < m)
    (hsel : selectSizes C.tr ⟨m, 1, 1⟩ = .ok e) (he : e.x < 2 ^ 31) : Fails (VecWorld.step C W (.resize s m)) .oob := by
  obtain ⟨σ, a, k1, k2, k3, k4, k5, k6, k7⟩ := reachable hL htr h1 hp hr hn hg hpos
  unfold VecWorld.step
  refine (count_ok hn).fails fun _ _ => ?_
  refine (obj_ok hg).fails ?_
  rintro _ rfl
  rw [if_pos hm]
  exact (reserve_fails hL h1 dv k1 k2 k3 k7 hagg hsel he).bind

/-- `push_back()` is undefined behaviour once the buffer is full. -/
theorem C87_false_push (hL : C.L.WF) (htr : ∀ m ∈ C.L, m.ty.triv = true) (h1 : OneD C.tr) (p : Prog (VecOp V) (ArrOut V) ρ)
    (hp : p.Safe (VecPre C dv) (VecPost C dv) VecSpec.start) {W : VecWorld V} {x : ρ}
    (hr : p.execND (VecWorld.step C) VecWorld.init (.ok (W, x))) {s n : Nat} {g : Grid} {e : Ext} (hn : W.n s = some n)
    (hg : W.D.w.g (s + 1) = some g) (hpos : g.ex ≠ some 0) (hagg : 0 < aggSize C.L) (hfull : g.ex = some n)
    (hsel : selectSizes C.tr ⟨grow n, 1, 1⟩ = .ok e) (he : e.x < 2 ^ 31) (c : Cell V) :
    Fails (VecWorld.step C W (.push s c)) .oob := by
  obtain ⟨σ, a, k1, k2, k3, k4, k5, k6, k7⟩ := reachable hL htr h1 hp hr hn hg hpos
  unfold VecWorld.step
  refine (count_ok hn).fails ?_
  rintro _ rfl
  refine (extentX_ok hg hfull).fails ?_
  rintro _ rfl
  rw [if_pos rfl]
  exact (reserve_fails hL h1 dv k1 k2 k3 k7 hagg hsel he).bind

/-- The constructor sets the first element only: whatever the value passed to it, all other elements keep the default. -/
theorem C87_false_fill (hL : C.L.WF) (htr : ∀ m ∈ C.L, m.ty.triv = true) (h1 : OneD C.tr) (dv : V) {n i : Nat} {e : Ext}
    (hsel : selectSizes C.tr ⟨n, 1, 1⟩ = .ok e) (hn : n < 2 ^ 31) (hi : 0 < i ∧ i < n) (c t : Cell V) :
    Always (Prog.execND (VecWorld.step C) (.call (.newFill 0 n c) fun _ => .call (.get 0 i t) .ret) VecWorld.init) fun q =>
      ∃ t', q.2 = .cells [overlay C.L (dfltCell C.L dv) t'] := by
  have hp : (Prog.call (.newFill 0 n c) fun _ => .call (.get 0 i t) .ret : Prog (VecOp V) (ArrOut V) (ArrOut V)).Safe
      (VecPre C dv) (VecPost C dv) VecSpec.start := by
    refine ⟨⟨by simp [VecSpec.step, VecSpec.create, VecSpec.start, hsel], fun h => h, hn⟩, fun σ out h => ?_⟩
    rcases h with ⟨e', k, _⟩ | ⟨e', k, _, rfl⟩
    · rw [hsel] at k; cases k
    · exact ⟨⟨by simp [VecSpec.step, VecSpec.onVec, upd, hi.2], fun h => h, trivial⟩, fun _ _ _ => trivial⟩
  refine (Prog.execND_refines (R := VDR C) (fun op hR h => vstep_all hL htr h1 dv hR op h) _ (VDR.init (C := C)) hp).mono ?_
  rintro q ⟨σ, ⟨σ1, o1, p1, σ2, o2, p2, p3, p4⟩, _⟩
  rcases p1 with ⟨e', k, _⟩ | ⟨e', k, _, rfl⟩
  · rw [hsel] at k; cases k
  · obtain ⟨t', p2⟩ := p2
    have hi0 : i ≠ 0 := by omega
    simp [VecSpec.step, VecSpec.onVec, upd, hi.2, hi0] at p2
    exact ⟨t', by rw [p3, ← p2.2]⟩

theorem count_fails {W : VecWorld V} {s : Nat} (h : W.n s = none) : Fails (W.count s) .dangling := by
  unfold VecWorld.count; rw [h]; exact Fails.ub _

/-- Calls for vectors which do not exist (never constructed, or destroyed) are undefined behaviour in each state, and so is construction
    in place of an existing one: C87 does not hold by ignoring them. -/
theorem C87_misuse (W : VecWorld V) (s : Nat) :
    (W.n s = none → ∀ op : VecOp V, op ∈ [.destroy s, .clear s, .size s, .empty s, .capacity s] ∨ (∃ i c, op = .set s i c) ∨
      (∃ i c, op = .get s i c) ∨ (∃ c, op = .push s c) ∨ (∃ c, op = .pop s c) ∨ (∃ m, op = .resize s m ∨ op = .reserve s m) ∨
      (∃ x X r k v, op = .poke s x X r k v) ∨ (∃ x X r k, op = .peek s x X r k) → Fails (VecWorld.step C W op) .dangling) ∧
    (W.n s ≠ none → ∀ n c, Fails (VecWorld.step C W (.new s n)) .lifetime ∧ Fails (VecWorld.step C W (.newFill s n c)) .lifetime) := by
  refine ⟨fun hn op hop => ?_, fun hn n c => ?_⟩
  · have := count_fails (W := W) hn
    simp only [List.mem_cons, List.not_mem_nil, or_false] at hop
    rcases hop with (rfl | rfl | rfl | rfl | rfl) | ⟨i, c, rfl⟩ | ⟨i, c, rfl⟩ | ⟨c, rfl⟩ | ⟨c, rfl⟩ | ⟨m, rfl | rfl⟩ |
      ⟨x, X, r, k, v, rfl⟩ | ⟨x, X, r, k, rfl⟩ <;> unfold VecWorld.step <;> exact this.bind
  · cases h : W.n s with
    | none => exact absurd h hn
    | some m =>
      constructor <;> unfold VecWorld.step <;> simp only [h] <;> exact Fails.ub _

/-! ### Examples -/

/-- A vector of structs with the default traits. -/
def demoV : Cfg Int := ⟨demoL, .dflt, false⟩

/-- Appends an element, if the vector has been constructed, and returns the number of elements. -/
def appendOne (n : Nat) : Prog (VecOp Int) (ArrOut Int) Nat :=
  .call (.newFill 0 n demoCell) fun
    | .unit => .call (.push 0 demoCell) fun _ => .call (.set 0 n demoCell) fun _ => .call (.size 0) fun
      | .nat k => .call (.destroy 0) fun _ => .ret k
      | _ => .ret 0
    | _ => .ret 0

theorem appendOne_safe {n : Nat} {e : Ext} (hs : selectSizes demoV.tr ⟨n, 1, 1⟩ = .ok e) (hn : n < e.x) (he : e.x < 2 ^ 31) :
    (appendOne n).Safe (VecPre demoV 0) (VecPost demoV 0) VecSpec.start := by
  have ht : ArrSpec.trivial demoV.L = true := by simp [ArrSpec.trivial, demoV, demoL]
  have hpush : ∀ {σ : VecSpec.State Int} {a : AVec Int}, σ 0 = some a → a.known = true → a.n = n → a.ext = e.x →
      VecSpec.step demoV 0 σ (.push 0 demoCell) =
        some (upd σ 0 (some { a with n := a.n + 1, cells := VecSpec.put a.cells a.n demoCell }), .unit) := by
    intro σ a h1 h2 h3 h4
    have hw : VecSpec.Writable demoV.L a a.n := ⟨by omega, .inl ht⟩
    simp only [VecSpec.step, VecSpec.onVec, h1, VecSpec.push, h2, if_true]
    rw [if_neg (by omega)]
    simp only [if_pos hw, Option.map_some]
    rw [h2]
  refine ⟨⟨by simp [VecSpec.step, VecSpec.create, VecSpec.start, hs], fun h => h, by show n < 2 ^ 31; omega⟩, fun σ out h => ?_⟩
  rcases h with ⟨e', k, _⟩ | ⟨e', k, rfl, rfl⟩
  · rw [hs] at k; cases k
  · rw [hs] at k; cases k
    have hst := hpush (a := ⟨n, e.x, true, n, fun i => if i < n then some (if i = 0 then demoCell else dfltCell demoV.L 0) else none⟩)
      (upd_self VecSpec.start 0 _) rfl rfl rfl
    refine ⟨⟨by rw [hst]; rfl, ?_, trivial⟩, fun σ out h => ?_⟩
    · rintro ⟨a, e', h1, h2, _⟩
      rw [upd_self] at h1; cases h1
      simp only at h2; omega
    · change VecSpec.step _ _ _ _ = _ at h
      rw [hst] at h; cases h
      have hw : VecSpec.Writable demoV.L (⟨n, e.x, true, n + 1, VecSpec.put (fun i => if i < n then
          some (if i = 0 then demoCell else dfltCell demoV.L 0) else none) n demoCell⟩ : AVec Int) n := ⟨hn, .inl ht⟩
      refine ⟨⟨by simp [VecSpec.step, VecSpec.onVec, upd, hw], fun h => h, trivial⟩, fun σ out h => ?_⟩
      change VecSpec.step _ _ _ _ = _ at h
      simp [VecSpec.step, VecSpec.onVec, upd, hw] at h
      obtain ⟨rfl, rfl⟩ := h
      refine ⟨⟨by simp [VecSpec.step, VecSpec.onVec, upd_self], fun h => h, trivial⟩, fun σ out h => ?_⟩
      change VecSpec.step _ _ _ _ = _ at h
      simp [VecSpec.step, VecSpec.onVec, upd_self] at h
      obtain ⟨rfl, rfl⟩ := h
      exact ⟨⟨by simp [VecSpec.step, upd_self], fun h => h, trivial⟩, fun _ _ _ => trivial⟩

/-- Three elements fit, so one can be appended and the size asked for. Then no memory is left. -/
example := C87_partial (C := demoV) (dv := 0) demoL_WF demoL_triv OneD.dflt (appendOne 3)
  (appendOne_safe (e := ⟨32, 1, 1⟩) (by decide) (by decide) (by decide))

/-- Asks for more elements than the traits support, and goes on with the old ones. -/
def askTooMuch (m : Nat) : Prog (VecOp Int) (ArrOut Int) (ArrOut Int) :=
  .call (.new 0 3) fun _ => .call (.reserve 0 m) fun _ => .call (.set 0 2 demoCell) fun _ => .call (.get 0 2 demoCell) .ret

theorem askTooMuch_safe {m : Nat} {x : Exc} (hx : selectSizes demoV.tr ⟨m, 1, 1⟩ = .error x) :
    (askTooMuch m).Safe (VecPre demoV 0) (VecPost demoV 0) VecSpec.start := by
  have hs : selectSizes demoV.tr ⟨3, 1, 1⟩ = .ok ⟨32, 1, 1⟩ := by decide
  have ht : ArrSpec.trivial demoV.L = true := by simp [ArrSpec.trivial, demoV, demoL]
  have hw : ∀ cells : Nat → Option (Cell Int), VecSpec.Writable demoV.L (⟨3, 32, true, 3, cells⟩ : AVec Int) 2 :=
    fun _ => ⟨by show 2 < 32; decide, .inl ht⟩
  refine ⟨⟨by simp [VecSpec.step, VecSpec.create, VecSpec.start, hs], fun h => h, by simp [VecLimits]⟩, fun σ out h => ?_⟩
  change VecSpec.step _ _ _ _ = _ at h
  simp [VecSpec.step, VecSpec.create, VecSpec.start, hs] at h
  obtain ⟨rfl, rfl⟩ := h
  refine ⟨⟨by simp [VecSpec.step, VecSpec.onVec, upd_self, VecSpec.reserve, hx], ?_, trivial⟩, fun σ out h => ?_⟩
  · rintro ⟨e, he⟩
    rw [hx] at he; cases he
  change VecSpec.step _ _ _ _ = _ at h
  simp [VecSpec.step, VecSpec.onVec, upd_self, VecSpec.reserve, hx] at h
  obtain ⟨rfl, rfl⟩ := h
  refine ⟨⟨by simp [VecSpec.step, VecSpec.onVec, upd_self, VecSpec.fill, hw], fun h => h, trivial⟩, fun σ out h => ?_⟩
  change VecSpec.step _ _ _ _ = _ at h
  simp [VecSpec.step, VecSpec.onVec, upd_self, VecSpec.fill, hw] at h
  obtain ⟨rfl, rfl⟩ := h
  exact ⟨⟨by simp [VecSpec.step, VecSpec.onVec, upd_self, VecSpec.put], fun h => h, trivial⟩, fun _ _ _ => trivial⟩

/-- The exception leaves the vector as it was. -/
example := C87_partial (C := demoV) (dv := 0) demoL_WF demoL_triv OneD.dflt (askTooMuch 10000000000)
  (askTooMuch_safe (x := .outOfRange "max grid dimension too large") (by decide))

/-- A vector of three elements exists, and `reserve()` fails. -/
example : ∃ W : VecWorld Int, (Prog.call (.new 0 3) .ret : Prog (VecOp Int) (ArrOut Int) (ArrOut Int)).execND (VecWorld.step demoV)
    VecWorld.init (.ok (W, .unit)) ∧ W.n 0 = some 3 ∧ Fails (VecWorld.step demoV W (.reserve 0 100)) .oob := by
  have hs : selectSizes demoV.tr ⟨3, 1, 1⟩ = .ok ⟨32, 1, 1⟩ := by decide
  have hp : (Prog.call (.new 0 3) .ret : Prog (VecOp Int) (ArrOut Int) (ArrOut Int)).Safe
      (VecPre demoV 0) (VecPost demoV 0) VecSpec.start :=
    ⟨⟨by simp [VecSpec.step, VecSpec.create, VecSpec.start, hs], fun h => h, by simp [VecLimits]⟩, fun _ _ _ => trivial⟩
  obtain ⟨⟨r, hr⟩, h2⟩ := Prog.execND_refines (R := VDR demoV) (fun op hR h => vstep_all demoL_WF demoL_triv OneD.dflt 0 hR op h) _
    (VDR.init (C := demoV)) hp
  obtain ⟨⟨W, x⟩, rfl, σ, ⟨σ1, o, k1, k2, k3⟩, hR⟩ := h2 r hr
  simp [VecPost, VecSpec.step, VecSpec.create, VecSpec.start, hs] at k1
  obtain ⟨rfl, rfl⟩ := k1
  simp only at k2 k3
  subst k2 k3
  obtain ⟨g, j1, j2, j3⟩ := hR.vec (s := 0) (upd_self _ _ _)
  exact ⟨W, hr, j2, C87_false_reserve (dv := 0) (e := ⟨128, 1, 1⟩) demoL_WF demoL_triv OneD.dflt _ hp hr j2 j1 (by rw [j3.ex rfl]; decide)
    (by decide) (by decide) (by decide)⟩

/-- Elements other than the first one do not get the value. -/
example (c t : Cell Int) := C87_false_fill (C := demoV) (n := 3) (i := 2) (e := ⟨32, 1, 1⟩) demoL_WF demoL_triv OneD.dflt 0 (by decide)
  (by decide) (by decide) c t

end Dev
end LFA
