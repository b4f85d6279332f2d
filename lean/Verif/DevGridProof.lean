import Verif.DevGrid
import Verif.GridRefine
import Verif.Props.Cuda

/-
  Proofs about device grids: each call has at least one outcome, and all outcomes are as specified.
-/
set_option linter.unusedSectionVars false
namespace LFA

/-! ### Reasoning about sets of outcomes -/
namespace ND

/-- There is an outcome, and all outcomes are free of undefined behaviour and satisfy `P`. -/
def Always {α : Type} (m : ND α) (P : α → Prop) : Prop := (∃ r, m r) ∧ ∀ r, m r → ∃ a, r = .ok a ∧ P a

theorem Always.pure {α : Type} {a : α} {P : α → Prop} (h : P a) : Always (pure a : ND α) P :=
  ⟨⟨_, rfl⟩, fun _ hr => ⟨a, hr, h⟩⟩

theorem Always.bind {α β : Type} {m : ND α} {f : α → ND β} {P : α → Prop} {Q : β → Prop} (h : Always m P)
    (hf : ∀ a, P a → Always (f a) Q) : Always (m >>= f) Q := by
  obtain ⟨⟨r, hr⟩, hall⟩ := h
  constructor
  · obtain ⟨a, rfl, ha⟩ := hall r hr
    obtain ⟨⟨r', hr'⟩, _⟩ := hf a ha
    exact ⟨r', .ok a, hr, hr'⟩
  · rintro r' ⟨r1, h1, h2⟩
    obtain ⟨a, rfl, ha⟩ := hall r1 h1
    exact (hf a ha).2 r' h2

theorem Always.mono {α : Type} {m : ND α} {P Q : α → Prop} (h : Always m P) (hPQ : ∀ a, P a → Q a) : Always m Q :=
  ⟨h.1, fun r hr => by obtain ⟨a, h1, h2⟩ := h.2 r hr; exact ⟨a, h1, hPQ a h2⟩⟩

theorem Always.lift {α : Type} {x : Except UB α} {a : α} (h : x = .ok a) {P : α → Prop} (hP : P a) : Always (ND.lift x) P :=
  ⟨⟨_, rfl⟩, fun _ hr => ⟨a, hr.trans h, hP⟩⟩

/-- From the form in which the properties of the kernels are stated. -/
theorem Always.of {α : Type} {m : ND α} {a : α} (h : (∃ r, m r) ∧ ∀ r, m r → r = .ok a) {P : α → Prop} (hP : P a) : Always m P :=
  ⟨h.1, fun r hr => ⟨a, h.2 r hr, hP⟩⟩

end ND
open ND

namespace Dev

/-! ### Staging buffers -/
section
variable {α : Type}

/-- Only finitely many buffers exist. -/
def Bounded (ac : CA.AWorld α) : Prop := ∃ n, ∀ s, n ≤ s → ac s = none

theorem Bounded.upd {ac : CA.AWorld α} (h : Bounded ac) (s : Nat) (x : Option (Nat × List (Option α))) :
    Bounded (CA.upd ac s x) := by
  obtain ⟨n, hn⟩ := h
  refine ⟨max n (s + 1), fun t ht => ?_⟩
  rw [CA.upd_ne _ _ (by omega)]
  exact hn t (by omega)

/-- `cudaMalloc` can return an unused address. -/
theorem exists_unused {c : CA.World α} {ac : CA.AWorld α} (h : CA.Rel c ac) (hb : Bounded ac) : ∃ p, c.heap p = none := by
  obtain ⟨n, hn⟩ := hb
  have hmax : ∀ k, ∃ N, ∀ s x, s < k → c.arr s = some x → x.ptr < N := by
    intro k
    induction k with
    | zero => exact ⟨0, fun s x hs => absurd hs (by omega)⟩
    | succ k ih =>
      obtain ⟨N, hN⟩ := ih
      cases hx : c.arr k with
      | none =>
        refine ⟨N, fun s x hs h1 => ?_⟩
        by_cases he : s = k
        · subst he; rw [hx] at h1; cases h1
        · exact hN s x (by omega) h1
      | some y =>
        refine ⟨max N (y.ptr + 1), fun s x hs h1 => ?_⟩
        by_cases he : s = k
        · subst he; rw [hx] at h1; cases h1; omega
        · have := hN s x (by omega) h1; omega
  obtain ⟨N, hN⟩ := hmax n
  refine ⟨N, ?_⟩
  cases hp : c.heap N with
  | none => rfl
  | some m =>
    obtain ⟨s, x, h1, h2⟩ := h.own N m hp
    by_cases hs : s < n
    · have := hN s x hs h1; omega
    · have := (h.hnone s).2 (hn s (by omega))
      rw [this] at h1; cases h1

theorem Always.call {c : CA.World α} {ac : CA.AWorld α} (h : CA.Rel c ac) (hb : Bounded ac) {op : CA.Op α} (hpre : CA.Spec.Pre ac op)
    (hop : ∀ s n v, op ≠ .fill s n v) :
    Always (call c op) fun q => CA.Rel q.1 (CA.Spec.step ac op).1 ∧ CA.Agrees q.2 (CA.Spec.step ac op).2 := by
  constructor
  · obtain ⟨p, hp⟩ := exists_unused h hb
    refine ⟨_, ⟨some p, []⟩, ⟨⟨p, rfl, hp⟩, ?_⟩, rfl⟩
    cases op with
    | fill s n v => exact absurd rfl (hop s n v)
    | _ => trivial
  · rintro r ⟨ans, h1, rfl⟩
    obtain ⟨w', out, k1, k2, k3⟩ := CA.step_ok h hpre h1
    exact ⟨_, k1, k2, k3⟩

theorem Always.mem {c : CA.World α} {ac : CA.AWorld α} (h : CA.Rel c ac) {i cap : Nat} {l : List (Option α)}
    (hi : ac i = some (cap, l)) :
    Always (mem c i) fun q => ∃ x, c.arr i = some x ∧ q.1 = x.ptr ∧ c.heap x.ptr = some q.2 ∧ q.2.length = cap ∧ x.cap = cap ∧
      x.size = l.length ∧ l.length ≤ cap ∧ CA.Agrees (q.2.take l.length) l := by
  cases hx : c.arr i with
  | none => rw [(h.hnone i).1 hx] at hi; cases hi
  | some x =>
    obtain ⟨h1, h2, h3, m, h4, h5, h6⟩ := h.hsome i x cap l hx hi
    unfold Dev.mem
    simp only [hx, h4]
    exact Always.pure ⟨x, rfl, rfl, h4, by rw [h5, h1], h1, h2, by rw [← h2, ← h1]; exact h3, by rw [← h2]; exact h6⟩

/-- A kernel has written to all of the memory of a staging buffer. -/
theorem put_rel {c : CA.World α} {ac : CA.AWorld α} (h : CA.Rel c ac) {i : Nat} {x : CA.Arr} (hx : c.arr i = some x)
    {t : List α} (ht : t.length = x.cap) (hs : x.size ≤ x.cap) :
    CA.Rel (put c x.ptr t) (CA.upd ac i (some (x.cap, (t.take x.size).map some))) := by
  have := h.change hx (x' := x) (m := t.map some) (l := (t.take x.size).map some) (h' := CA.upd c.heap x.ptr (some (t.map some)))
    (by rw [CA.upd_upd]) (.inl rfl) (by simp; omega) hs (by simp [ht])
    (by rw [List.map_take]; exact CA.Agrees.refl _)
  rw [CA.upd_same hx] at this
  exact this

/-- The staging buffers of the grids: each grid has one, there are no others. -/
def Staging (live : Nat → Bool) (c : CA.World α) : Prop :=
  ∃ ac, CA.Rel c ac ∧ Bounded ac ∧ ac 0 = none ∧ ∀ s, (ac (s + 1)).isSome = live s

theorem Staging.ofUpd {live : Nat → Bool} {c : CA.World α} {ac : CA.AWorld α} (hb : Bounded ac) (h0 : ac 0 = none)
    (hl : ∀ s, (ac (s + 1)).isSome = live s) {s : Nat} {x : Nat × List (Option α)} (hs : live s = true)
    (hr : CA.Rel c (CA.upd ac (s + 1) (some x))) : Staging live c := by
  refine ⟨_, hr, hb.upd _ _, by rw [CA.upd_ne _ _ (by omega), h0], fun t => ?_⟩
  by_cases ht : t = s
  · subst ht; simp [CA.upd, hs]
  · rw [CA.upd_ne _ _ (by omega)]; exact hl t

/-- `swap` of staging buffers. -/
theorem Staging.swap {live : Nat → Bool} {c : CA.World α} (h : Staging live c) {s t : Nat} (hs : live s = true) (ht : live t = true) :
    Always (swapBuf c (s + 1) (t + 1)) (Staging live) := by
  obtain ⟨ac, h1, h2, h3, h4⟩ := h
  obtain ⟨⟨cs, ls⟩, hcs⟩ := Option.isSome_iff_exists.1 ((h4 s).trans hs)
  obtain ⟨⟨ct, lt⟩, hct⟩ := Option.isSome_iff_exists.1 ((h4 t).trans ht)
  unfold swapBuf
  refine (Always.call h1 h2 (op := .copy 0 (s + 1)) ⟨h3, _, hcs⟩ (fun _ _ _ => by simp)).bind ?_
  rintro q ⟨k1, -⟩
  simp only [CA.Spec.step, hcs] at k1
  have b1 := h2.upd 0 (some (ls.length, ls))
  have e1 : ∀ i, CA.upd ac 0 (some (ls.length, ls)) (i + 1) = ac (i + 1) := fun i => CA.upd_ne _ _ (by omega)
  have z1 : CA.upd ac 0 (some (ls.length, ls)) 0 = some (ls.length, ls) := by simp [CA.upd]
  generalize CA.upd ac 0 (some (ls.length, ls)) = a1 at k1 b1 e1 z1
  refine (Always.call k1 b1 (op := .assign (s + 1) (t + 1)) ⟨⟨_, by rw [e1, hcs]⟩, _, by rw [e1, hct]⟩ (fun _ _ _ => by simp)).bind ?_
  rintro q2 ⟨k2, -⟩
  simp only [CA.Spec.step, e1, hcs, hct] at k2
  have b2 := b1.upd (s + 1) (some (max cs lt.length, lt))
  have d2 : ∀ i, (CA.upd a1 (s + 1) (some (max cs lt.length, lt)) (i + 1)).isSome = live i := by
    intro i
    by_cases hi : i = s
    · subst hi; simp [CA.upd, hs]
    · rw [CA.upd_ne _ _ (by omega), e1, h4]
  have z2 : CA.upd a1 (s + 1) (some (max cs lt.length, lt)) 0 = some (ls.length, ls) := by
    rw [CA.upd_ne _ _ (by omega), z1]
  generalize CA.upd a1 (s + 1) (some (max cs lt.length, lt)) = a2 at k2 b2 d2 z2
  obtain ⟨⟨ct', lt'⟩, hct'⟩ := Option.isSome_iff_exists.1 ((d2 t).trans ht)
  refine (Always.call k2 b2 (op := .assign (t + 1) 0) ⟨⟨_, hct'⟩, _, z2⟩ (fun _ _ _ => by simp)).bind ?_
  rintro q3 ⟨k3, -⟩
  simp only [CA.Spec.step, hct', z2] at k3
  have b3 := b2.upd (t + 1) (some (max ct' ls.length, ls))
  have d3 : ∀ i, (CA.upd a2 (t + 1) (some (max ct' ls.length, ls)) (i + 1)).isSome = live i := by
    intro i
    by_cases hi : i = t
    · subst hi; simp [CA.upd, ht]
    · rw [CA.upd_ne _ _ (by omega), d2]
  have z3 : CA.upd a2 (t + 1) (some (max ct' ls.length, ls)) 0 = some (ls.length, ls) := by
    rw [CA.upd_ne _ _ (by omega), z2]
  generalize CA.upd a2 (t + 1) (some (max ct' ls.length, ls)) = a3 at k3 b3 d3 z3
  refine (Always.call k3 b3 (op := .del 0) ⟨_, z3⟩ (fun _ _ _ => by simp)).bind ?_
  rintro q4 ⟨k4, -⟩
  simp only [CA.Spec.step] at k4
  refine Always.pure ⟨_, k4, b3.upd _ _, by simp [CA.upd], fun i => ?_⟩
  rw [CA.upd_ne _ _ (by omega), d3]

theorem Staging.new {live : Nat → Bool} {c : CA.World α} (h : Staging live c) {s : Nat} (hs : live s = false) :
    Always (call c (.new (s + 1) 0)) fun q => Staging (fun t => if t = s then true else live t) q.1 := by
  obtain ⟨ac, h1, h2, h3, h4⟩ := h
  have hn : ac (s + 1) = none := by
    have := h4 s; rw [hs] at this
    exact Option.isSome_eq_false_iff.1 this |> Option.isNone_iff_eq_none.1
  refine (Always.call h1 h2 (op := .new (s + 1) 0) hn (fun _ _ _ => by simp)).mono ?_
  rintro q ⟨k1, -⟩
  simp only [CA.Spec.step] at k1
  refine ⟨_, k1, h2.upd _ _, by rw [CA.upd_ne _ _ (by omega), h3], fun i => ?_⟩
  by_cases hi : i = s
  · subst hi; simp [CA.upd]
  · rw [CA.upd_ne _ _ (by omega), h4]; exact (if_neg hi).symm

theorem Staging.del {live : Nat → Bool} {c : CA.World α} (h : Staging live c) {s : Nat} (hs : live s = true) :
    Always (call c (.del (s + 1))) fun q => Staging (fun t => if t = s then false else live t) q.1 := by
  obtain ⟨ac, h1, h2, h3, h4⟩ := h
  obtain ⟨x, hx⟩ := Option.isSome_iff_exists.1 ((h4 s).trans hs)
  refine (Always.call h1 h2 (op := .del (s + 1)) ⟨x, hx⟩ (fun _ _ _ => by simp)).mono ?_
  rintro q ⟨k1, -⟩
  simp only [CA.Spec.step] at k1
  refine ⟨_, k1, h2.upd _ _, by rw [CA.upd_ne _ _ (by omega), h3], fun i => ?_⟩
  by_cases hi : i = s
  · subst hi; simp [CA.upd]
  · rw [CA.upd_ne _ _ (by omega), h4]; exact (if_neg hi).symm

/-- The staging buffers, among them the one of grid `s` with the contents `l`. -/
def Stage (live : Nat → Bool) (c : CA.World α) (s : Nat) (l : List (Option α)) : Prop :=
  ∃ ac cap, CA.Rel c ac ∧ Bounded ac ∧ ac 0 = none ∧ (∀ t, (ac (t + 1)).isSome = live t) ∧ ac (s + 1) = some (cap, l)

theorem Stage.staging {live : Nat → Bool} {c : CA.World α} {s : Nat} {l : List (Option α)} (h : Stage live c s l) : Staging live c := by
  obtain ⟨ac, cap, h1, h2, h3, h4, h5⟩ := h
  exact ⟨ac, h1, h2, h3, h4⟩

theorem Staging.stage {live : Nat → Bool} {c : CA.World α} (h : Staging live c) {s : Nat} (hs : live s = true) : ∃ l, Stage live c s l := by
  obtain ⟨ac, h1, h2, h3, h4⟩ := h
  obtain ⟨⟨cap, l⟩, hx⟩ := Option.isSome_iff_exists.1 ((h4 s).trans hs)
  exact ⟨l, ac, cap, h1, h2, h3, h4, hx⟩

theorem Stage.ofUpd {live : Nat → Bool} {c : CA.World α} {ac : CA.AWorld α} (hb : Bounded ac) (h0 : ac 0 = none)
    (hl : ∀ s, (ac (s + 1)).isSome = live s) {s cap : Nat} {l : List (Option α)} (hs : live s = true)
    (hr : CA.Rel c (CA.upd ac (s + 1) (some (cap, l)))) : Stage live c s l := by
  refine ⟨_, cap, hr, hb.upd _ _, by rw [CA.upd_ne _ _ (by omega), h0], fun t => ?_, by simp [CA.upd]⟩
  by_cases ht : t = s
  · subst ht; simp [CA.upd, hs]
  · rw [CA.upd_ne _ _ (by omega)]; exact hl t

theorem Stage.live {live : Nat → Bool} {c : CA.World α} {s : Nat} {l : List (Option α)} (h : Stage live c s l) : live s = true := by
  obtain ⟨ac, cap, h1, h2, h3, h4, h5⟩ := h
  rw [← h4, h5]; rfl

/-- `resize` of a staging buffer. -/
theorem Stage.resize {live : Nat → Bool} {c : CA.World α} {s : Nat} {l : List (Option α)} (h : Stage live c s l) (n : Nat) :
    Always (call c (.resize (s + 1) n)) fun q => Stage live q.1 s (l.take n ++ List.replicate (n - l.length) none) := by
  have hs := h.live
  obtain ⟨ac, cap, h1, h2, h3, h4, h5⟩ := h
  refine (Always.call h1 h2 (op := .resize (s + 1) n) ⟨_, h5⟩ (fun _ _ _ => by simp)).mono ?_
  rintro q ⟨k1, -⟩
  simp only [CA.Spec.step, h5] at k1
  exact Stage.ofUpd h2 h3 h4 hs k1

/-- `resize` and `load`: the memory behind `data()` starts with the data from the host. -/
theorem Staging.upload {β : Type} {live : Nat → Bool} {c : CA.World α} (h : Staging live c) {s : Nat} (hs : live s = true)
    (l : List α) {n : Nat} (hn : n = l.length) {f : CA.World α × List (Option α) → Nat × List (Option α) → ND β} {Q : β → Prop}
    (hf : ∀ q m, Stage live q.1 s (l.map some) → l.length ≤ m.2.length →
      (∀ (i : Nat) (v : α), l[i]? = some v → m.2[i]? = some (some v)) → Always (f q m) Q) :
    Always (do let q ← call c (.resize (s + 1) n); let q ← call q.1 (.load (s + 1) l); let m ← mem q.1 (s + 1); f q m) Q := by
  subst hn
  obtain ⟨l0, h0⟩ := h.stage hs
  refine (h0.resize l.length).bind ?_
  rintro q ⟨ac, cap, h1, h2, h3, h4, h5⟩
  have h6 : (l0.take l.length ++ List.replicate (l.length - l0.length) none).length = l.length := by simp; omega
  refine (Always.call h1 h2 (op := .load (s + 1) l) ⟨cap, _, h5, by omega⟩ (fun _ _ _ => by simp)).bind ?_
  rintro q2 ⟨k1, -⟩
  simp only [CA.Spec.step, h5, h6, List.take_length] at k1
  refine (Always.mem k1 (i := s + 1) (by simp only [CA.upd, if_true]; rfl)).bind ?_
  rintro m ⟨x, m1, m2, m3, m4, m5, m6, m7, m8⟩
  refine hf q2 m (Stage.ofUpd h2 h3 h4 hs k1) (by simpa [m4] using m7) (fun i v hv => ?_)
  have hi : i < l.length := (List.getElem?_eq_some_iff.1 hv).1
  have := m8.2 i v (by rw [List.getElem?_map, hv]; rfl)
  rwa [List.getElem?_take_of_lt (by simpa using hi)] at this

/-- A kernel fills the memory of a staging buffer, and `save` copies it to the host. -/
theorem Staging.download {β : Type} {live : Nat → Bool} {c : CA.World α} {ac : CA.AWorld α} (h1 : CA.Rel c ac) (h2 : Bounded ac)
    (h3 : ac 0 = none) (h4 : ∀ t, (ac (t + 1)).isSome = live t) {s : Nat} (hs : live s = true) {x : CA.Arr}
    (hx : c.arr (s + 1) = some x) {t : List α} (ht : t.length = x.cap) (hsz : x.size ≤ x.cap)
    {f : CA.World α × List (Option α) → ND β} {Q : β → Prop}
    (hf : ∀ q, Staging live q.1 → q.2 = (t.take x.size).map some → Always (f q) Q) :
    Always (do let q ← call (put c x.ptr t) (.save (s + 1)); f q) Q := by
  have hr := put_rel h1 hx ht hsz
  refine (Always.call hr (h2.upd _ _) (op := .save (s + 1)) ⟨_, by simp only [CA.upd, if_true]; rfl⟩ (fun _ _ _ => by simp)).bind ?_
  rintro q ⟨k1, k2⟩
  simp only [CA.Spec.step, CA.upd, if_true] at k1 k2
  refine hf q (Staging.ofUpd h2 h3 h4 hs k1) ?_
  obtain ⟨k2, k3⟩ := k2
  refine List.ext_getElem? fun i => ?_
  by_cases hi : i < (t.take x.size).length
  · have e : ((t.take x.size).map some)[i]? = some (some (t.take x.size)[i]) := by
      rw [List.getElem?_map, List.getElem?_eq_getElem hi]; rfl
    rw [e, k3 i _ e]
  · rw [List.getElem?_eq_none (by rw [k2]; simp only [List.length_map]; omega), List.getElem?_eq_none (by simp only [List.length_map]; omega)]

end

/-! ### Callbacks and lifecycle -/
section
variable {V : Type} [DecidableEq V] {C : Cfg V}

theorem callbackMut_ok {g : Grid} {F : Ext → Block V → Except UB (Block V)} {f : Ext → Block V → ND (Block V)} {h h' : Heap V}
    (hh : g.callbackMut C F h = .ok () h')
    (hf : ∀ e b b', selectSizes C.tr g.dim = .ok e → F e b = .ok b' → Always (f e b) fun x => x = b') :
    Always (Dev.callbackMut C g f h) fun r => r = .ok h' := by
  unfold Grid.callbackMut at hh
  unfold Dev.callbackMut
  cases hs : selectSizes C.tr g.dim with
  | error x => rw [hs] at hh; cases hh
  | ok e =>
    rw [hs] at hh
    simp only [onBuffer] at hh
    cases hd : g.data with
    | none =>
      simp only [hd] at hh
      cases hb : F e (Block.fresh 0) with
      | error u => rw [hb] at hh; cases hh
      | ok b' =>
        rw [hb] at hh; cases hh
        exact (hf e _ b' hs hb).bind fun _ _ => Always.pure rfl
    | some id =>
      simp only [hd] at hh
      cases hk : h.blk id with
      | none => rw [hk] at hh; cases hh
      | some b =>
        simp only [hk] at hh
        cases hb : F e b with
        | error u => rw [hb] at hh; cases hh
        | ok b' =>
          rw [hb] at hh; cases hh
          simp only [hk]
          exact (hf e b b' hs hb).bind fun x hx => by subst hx; exact Always.pure rfl

theorem callbackRead_ok {α : Type} {g : Grid} {F : Ext → Block V → Except UB α} {f : Ext → Block V → ND α} {h : Heap V} {a : α}
    (hh : g.callbackRead C F h = .ok a h)
    (hf : ∀ e b a, selectSizes C.tr g.dim = .ok e → F e b = .ok a → Always (f e b) fun x => x = a) :
    Always (Dev.callbackRead C g f h) fun r => r = .ok a := by
  unfold Grid.callbackRead at hh
  unfold Dev.callbackRead
  cases hs : selectSizes C.tr g.dim with
  | error x => rw [hs] at hh; cases hh
  | ok e =>
    rw [hs] at hh
    cases hd : g.data with
    | none =>
      simp only [hd] at hh
      cases hb : F e (Block.fresh 0) with
      | error u => rw [hb] at hh; cases hh
      | ok b' =>
        rw [hb] at hh; cases hh
        exact (hf e _ _ hs hb).bind fun x hx => by subst hx; exact Always.pure rfl
    | some id =>
      simp only [hd] at hh
      cases hk : h.blk id with
      | none => rw [hk] at hh; cases hh
      | some b =>
        simp only [hk] at hh
        cases hb : F e b with
        | error u => rw [hb] at hh; cases hh
        | ok b' =>
          rw [hb] at hh; cases hh
          simp only [hk]
          exact (hf e b _ hs hb).bind fun x hx => by subst hx; exact Always.pure rfl

theorem destroy_ok (hL : C.L.WF) {g : Grid} {h h' : Heap V} (hl : ∀ id, g.data = some id → LaunchDims g.dim)
    (hh : g.destroyAndDeallocate C h = .ok () h') : Always (Dev.destroyAndDeallocate C g h) fun r => r = .ok h' := by
  unfold Grid.destroyAndDeallocate at hh
  unfold Dev.destroyAndDeallocate
  cases hd : g.data with
  | none => simp only [hd] at hh; cases hh; exact Always.pure rfl
  | some id =>
    simp only [hd] at hh
    cases hc : g.callbackMut C (fun e => destroyFunctor C.L g.dim e) h with
    | throw x h1 => rw [hc] at hh; cases hh
    | ub u => rw [hc] at hh; cases hh
    | ok u h1 =>
      rw [hc] at hh
      simp only [Res.bind] at hh
      refine (callbackMut_ok hc (fun e b b' he hb =>
        Always.of (C39_destroy_partial C.L hL g.dim e (selectSizes_fits he) (hl id hd) b b' hb) rfl)).bind fun r hr => ?_
      subst hr
      dsimp only
      cases hb : g.bs with
      | none => rw [hb] at hh; cases hh
      | some n =>
        rw [hb] at hh
        dsimp only at hh ⊢
        cases hde : h1.dealloc id n with
        | error u => rw [hde] at hh; cases hh
        | ok h2 =>
          rw [hde] at hh; cases hh
          exact (Always.lift rfl rfl).bind fun x hx => by subst hx; exact Always.pure rfl

theorem resize_ok (hL : C.L.WF) {g g' : Grid} {d : Ext} {h h' : Heap V} (hl : ∀ id, g.data = some id → LaunchDims g.dim)
    (hld : LaunchDims d) (hh : g.resize C d h = .ok () (g', h')) :
    Always (Dev.resize C g d h) fun r => r = (none, g', h') := by
  unfold Grid.resize at hh
  unfold Dev.resize
  split at hh
  · rename_i hs
    rw [if_pos hs]
    cases hh; exact Always.pure rfl
  · rename_i hs
    rw [if_neg hs]
    cases hc : g.destroyAndDeallocate C h with
    | throw x h1 => rw [hc] at hh; cases hh
    | ub u => rw [hc] at hh; cases hh
    | ok u h1 =>
      rw [hc] at hh
      simp only [Res.withGrid, Res.bind] at hh
      refine (destroy_ok hL hl hc).bind fun r hr => ?_
      subst hr
      dsimp only
      cases he : selectSizes C.tr d with
      | error x => rw [he] at hh; cases hh
      | ok e =>
        rw [he] at hh
        simp only at hh ⊢
        generalize hg2 : (⟨d, some e.x, some e.y, some e.z, some (byteSizeOf C.L e), some (h1.alloc (byteSizeOf C.L e)).1⟩ : Grid) = g2 at hh ⊢
        have hdim : g2.dim = d := by rw [← hg2]
        cases hi : g2.init C (h1.alloc (byteSizeOf C.L e)).2 with
        | throw x h1 => rw [hi] at hh; cases hh
        | ub u => rw [hi] at hh; cases hh
        | ok u h2 =>
          rw [hi] at hh
          simp only [Res.ok.injEq, Prod.mk.injEq, true_and] at hh
          obtain ⟨rfl, rfl⟩ := hh
          refine (callbackMut_ok (F := fun e => constructFunctor C.L g2.dim e) (f := fun e => constructCuda C.L d e) hi
            (fun e b b' he hb => Always.of (C39_construct_partial C.L hL d e (hdim ▸ selectSizes_fits he) hld b b' (hdim ▸ hb)) rfl)).bind
              fun r hr => ?_
          subst hr
          exact Always.pure rfl

/-- The constructor throws before any memory has been allocated. -/
theorem resize_throw {g g' : Grid} {d : Ext} {h h' : Heap V} {x : Exc} (hd : g.data = none)
    (hh : g.resize C d h = .throw x (g', h')) : Always (Dev.resize C g d h) fun r => r = (some x, g', h') := by
  unfold Grid.resize at hh
  unfold Dev.resize
  split at hh
  · cases hh
  · rename_i hs
    rw [if_neg hs]
    simp only [Grid.destroyAndDeallocate, hd, Res.withGrid, Res.bind] at hh
    refine Always.bind (P := fun r => r = .ok h) (by simp only [Dev.destroyAndDeallocate, hd]; exact Always.pure rfl) fun r hr => ?_
    subst hr
    dsimp only
    cases he : selectSizes C.tr d with
    | error y =>
      rw [he] at hh
      simp only [Res.throw.injEq, Prod.mk.injEq] at hh
      obtain ⟨rfl, rfl, rfl⟩ := hh
      exact Always.pure (by rw [hd])
    | ok e =>
      rw [he] at hh
      simp only at hh
      generalize hg2 : (⟨d, some e.x, some e.y, some e.z, some (byteSizeOf C.L e), some (h.alloc (byteSizeOf C.L e)).1⟩ : Grid) = g2 at hh
      have hdim : g2.dim = d := by rw [← hg2]
      cases hi : g2.init C (h.alloc (byteSizeOf C.L e)).2 with
      | ub u => rw [hi] at hh; cases hh
      | ok u h2 => rw [hi] at hh; cases hh
      | throw y h1 =>
        exfalso
        unfold Grid.init Grid.callbackMut at hi
        rw [hdim, he] at hi
        simp only [onBuffer] at hi
        split at hi
        · split at hi <;> cases hi
        · split at hi
          · cases hi
          · split at hi <;> cases hi

theorem dtor_ok {g : Grid} {h h' : Heap V} (hh : g.dtor C h = .ok () h') : g.destroyAndDeallocate C h = .ok () h' := by
  unfold Grid.dtor at hh
  split at hh
  · cases hh
  · exact hh

/-! ### Specification -/

/-- Which grid variables hold an object? -/
def live (a : AWorld V) (s : Nat) : Bool :=
  match a s with
  | .absent => false
  | _ => true

/-- Limits of kernel launches: dimensions of grids, lengths of rows. Copy construction and assignment do not compile. -/
def Limits : Op V → Prop
  | .new _ d => LaunchDims d
  | .resize _ d => LaunchDims d
  | .set _ _ _ _ cells => cells.length < 2 ^ 31
  | .broadcast _ _ _ _ _ n => n < 2 ^ 31
  | .get _ _ _ _ target => target.length < 2 ^ 31
  | .load _ ss _ _ => ∀ st ∈ ss, st.len < 2 ^ 31
  | .save _ ss _ _ => ∀ st ∈ ss, st.len < 2 ^ 31
  | .copy _ _ => False
  | .assign _ _ => False
  | _ => True

/-- Effect of an operation on a device grid. It differs from that on the host in two cases: `broadcast` writes to the first cell
    only, and `get` replaces members which are not part of the grid by left-overs from the staging buffer. -/
def Post (C : Cfg V) (dv : V) (a : AWorld V) (op : Op V) (a' : AWorld V) (out : Out V) : Prop :=
  match op with
  | .broadcast s x y z cell n => Spec.Post C dv a (.broadcast s x y z cell (min n 1)) a' out
  | .get s x y z target => ∃ stale : List (Cell V), stale.length = target.length ∧ Spec.Post C dv a (.get s x y z stale) a' out
  | op => Spec.Post C dv a op a' out

/-- The state represents the arrays `a`. -/
structure DR (C : Cfg V) (D : World V) (a : AWorld V) : Prop where
  host : R C D.w a
  lim : ∀ s g, a s = .grid g → LaunchDims g.dim
  cells : Staging (live a) D.cs
  raw : Staging (live a) D.rs

theorem DR.init : DR C (World.init : World V) (fun _ => .absent) :=
  ⟨R.init, (fun _ _ h => nomatch h), ⟨_, CA.Rel.init, ⟨0, fun _ _ => rfl⟩, rfl, fun _ => rfl⟩,
   ⟨_, CA.Rel.init, ⟨0, fun _ _ => rfl⟩, rfl, fun _ => rfl⟩⟩

open LFA.World (upd)

theorem live_upd (a : AWorld V) (s : Nat) (x : ASlot V) :
    live (upd a s x) = fun t => if t = s then live (fun _ => x) 0 else live a t := by
  funext t
  by_cases ht : t = s
  · subst ht; simp [live, upd]
  · simp [live, upd, ht]

theorem live_grid {a : AWorld V} {s : Nat} (h : a s ≠ .absent) (g : AGrid V) : live (upd a s (.grid g)) = live a := by
  funext t
  by_cases ht : t = s
  · subst ht
    cases hs : a t <;> simp_all [live, upd]
  · simp [live, upd, ht]

theorem live_of {a : AWorld V} {s : Nat} (h : a s ≠ .absent) : live a s = true := by
  unfold live
  cases hs : a s <;> simp_all

theorem lim_upd {a : AWorld V} (h : ∀ s g, a s = .grid g → LaunchDims g.dim) {s : Nat} {x : ASlot V}
    (hx : ∀ g, x = .grid g → LaunchDims g.dim) : ∀ t g, upd a s x t = .grid g → LaunchDims g.dim := by
  intro t g ht
  by_cases he : t = s
  · subst he; rw [upd_self] at ht; exact hx g ht
  · rw [upd_ne _ _ he] at ht; exact h t g ht

theorem DR.obj {D : World V} {a : AWorld V} (_h : DR C D a) {s : Nat} {g : Grid} (hg : D.w.g s = some g) :
    Always (obj D s) fun x => g = x := by
  unfold Dev.obj; rw [hg]; exact Always.pure rfl

theorem DR.dims {D : World V} {a : AWorld V} (h : DR C D a) {s : Nat} {g : Grid} (hg : D.w.g s = some g) :
    ∀ id, g.data = some id → LaunchDims g.dim := by
  intro id hid
  have := h.host.slots s
  rw [hg] at this
  cases ha : a s with
  | absent => rw [ha] at this; cases this
  | blank => rw [ha] at this; obtain ⟨g', h1, h2, h3⟩ := this; cases h1; rw [hid] at h3; cases h3
  | grid ag => rw [ha] at this; obtain ⟨g', h1, h2⟩ := this; cases h1; rw [h2.1]; exact h.lim s ag ha

theorem trivial_ok (ht : ∀ m ∈ C.L, m.ty.triv = true) : Always (requireTrivial C) fun _ => True := by
  unfold requireTrivial
  rw [if_pos (by rw [List.all_eq_true]; exact ht)]
  exact Always.pure trivial

theorem structs_ok (dv : V) (l : List (Option (Cell V))) :
    Always (structs l) fun t => t.length = l.length ∧ ∀ (i : Nat) (v : Cell V), l[i]? = some (some v) → t[i]? = some v := by
  constructor
  · refine ⟨_, l.map (fun x => x.getD fun _ _ => dv), by simp, fun i v h => ?_, rfl⟩
    rw [List.getElem?_map, h]; rfl
  · rintro r ⟨t, h1, h2, rfl⟩
    exact ⟨t, rfl, h1, h2⟩

/-! ### One operation -/

theorem Post.of_host {dv : V} {a a' : AWorld V} {op : Op V} {out : Out V} (h : Spec.Post C dv a op a' out)
    (h1 : ∀ s x y z cell n, op ≠ .broadcast s x y z cell n) (h2 : ∀ s x y z t, op ≠ .get s x y z t) : Post C dv a op a' out := by
  cases op with
  | broadcast s x y z cell n => exact absurd rfl (h1 s x y z cell n)
  | get s x y z t => exact absurd rfl (h2 s x y z t)
  | _ => exact h

/-- Operations which do not launch any kernel of the library. -/
theorem host_step (hL : C.L.WF) (dv : V) {D : World V} {a : AWorld V} (hR : DR C D a) (op : Op V) (hpre : Spec.Pre C a op)
    (h1 : ∀ s x y z cell n, op ≠ .broadcast s x y z cell n) (h2 : ∀ s x y z t, op ≠ .get s x y z t)
    (hlive : ∀ a' out, Spec.Post C dv a op a' out → live a' = live a)
    (hlim : ∀ a' out, Spec.Post C dv a op a' out → ∀ s g, a' s = .grid g → LaunchDims g.dim) :
    Always (hostStep C D op) fun q => ∃ a', Post C dv a op a' q.2 ∧ DR C q.1 a' := by
  obtain ⟨w', out, a', k1, k2, k3⟩ := step_refines hL dv hR.host op hpre
  unfold hostStep
  rw [k1]
  refine (Always.lift rfl (P := fun q => q = (w', out)) rfl).bind ?_
  rintro _ rfl
  have e := hlive a' out k2
  exact Always.pure ⟨a', Post.of_host k2 h1 h2, k3, hlim a' out k2, by rw [e]; exact hR.cells, by rw [e]; exact hR.raw⟩

theorem step_new (hL : C.L.WF) (dv : V) {D : World V} {a : AWorld V} (hR : DR C D a) (s : Nat) (d : Ext)
    (hpre : Spec.Pre C a (.new s d)) (hlim : LaunchDims d) :
    Always (step C D (.new s d)) fun q => ∃ a', Post C dv a (.new s d) a' q.2 ∧ DR C q.1 a' := by
  obtain ⟨w', out, a', k1, k2, k3⟩ := step_refines hL dv hR.host _ hpre
  have hn := hR.host.absent hpre
  have hlv : live a s = false := by
    have : a s = .absent := hpre
    simp [live, this]
  simp only [LFA.World.step, hn, Grid.new] at k1
  unfold step
  simp only [hn]
  refine (hR.cells.new hlv).bind fun q hq => ?_
  refine (hR.raw.new hlv).bind fun p hp => ?_
  have hlv' : (fun t => if t = s then true else live a t) s = true := by simp
  cases hr : Grid.resize C ⟨⟨0, 0, 0⟩, none, none, none, none, none⟩ d D.w.h with
  | ub u => rw [hr] at k1; cases k1
  | ok u gh =>
    obtain ⟨g', h'⟩ := gh
    rw [hr] at k1
    simp only [LFA.World.ofCtor, Except.ok.injEq, Prod.mk.injEq] at k1
    obtain ⟨rfl, rfl⟩ := k1
    refine (resize_ok hL (by intro _ h; cases h) hlim hr).bind ?_
    rintro _ rfl
    refine Always.pure ⟨a', k2, k3, ?_, ?_, ?_⟩
    · cases k2 with
      | newBlank => exact lim_upd hR.lim fun g h => nomatch h
      | new _ _ e hd h => exact lim_upd hR.lim fun g h => by cases h; exact hlim
    · cases k2 <;> (rw [live_upd]; exact hq)
    · cases k2 <;> (rw [live_upd]; exact hp)
  | throw x gh =>
    obtain ⟨g', h'⟩ := gh
    rw [hr] at k1
    simp only [LFA.World.ofCtor, Except.ok.injEq, Prod.mk.injEq] at k1
    obtain ⟨rfl, rfl⟩ := k1
    refine (resize_throw rfl hr).bind ?_
    rintro _ rfl
    refine (hp.del hlv').bind fun p' hp' => ?_
    refine (hq.del hlv').bind fun q' hq' => ?_
    have e : (fun t => if t = s then false else if t = s then true else live a t) = live a := by
      funext t
      by_cases ht : t = s
      · subst ht; simp [hlv]
      · simp [ht]
    simp only [e] at hp' hq'
    cases k2 with
    | newFail _ _ x hd h => exact Always.pure ⟨a, .newFail a s d x hd h, k3, hR.lim, hq', hp'⟩

theorem step_destroy (hL : C.L.WF) (dv : V) {D : World V} {a : AWorld V} (hR : DR C D a) (s : Nat)
    (hpre : Spec.Pre C a (.destroy s)) :
    Always (step C D (.destroy s)) fun q => ∃ a', Post C dv a (.destroy s) a' q.2 ∧ DR C q.1 a' := by
  obtain ⟨w', out, a', k1, k2, k3⟩ := step_refines hL dv hR.host _ hpre
  have hlv := live_of hpre
  unfold step
  cases hg : D.w.g s with
  | none => simp only [LFA.World.step, LFA.World.withG, hg] at k1; cases k1
  | some g =>
    simp only [LFA.World.step, LFA.World.withG, hg] at k1
    refine (hR.obj hg).bind ?_
    rintro _ rfl
    cases hd : Grid.dtor C g D.w.h with
    | ub u => rw [hd] at k1; cases k1
    | throw x h => rw [hd] at k1; cases k1
    | ok u h =>
      rw [hd] at k1
      simp only [Except.ok.injEq, Prod.mk.injEq] at k1
      obtain ⟨rfl, rfl⟩ := k1
      refine (destroy_ok hL (hR.dims hg) (dtor_ok hd)).bind ?_
      rintro _ rfl
      refine (hR.raw.del hlv).bind fun p hp => ?_
      refine (hR.cells.del hlv).bind fun q hq => ?_
      cases k2
      exact Always.pure ⟨_, .destroy a s, k3, lim_upd hR.lim fun g h => (nomatch h), by rw [live_upd]; exact hq,
        by rw [live_upd]; exact hp⟩

theorem step_resize (hL : C.L.WF) (dv : V) {D : World V} {a : AWorld V} (hR : DR C D a) (s : Nat) (d : Ext)
    (hpre : Spec.Pre C a (.resize s d)) (hlim : LaunchDims d) :
    Always (step C D (.resize s d)) fun q => ∃ a', Post C dv a (.resize s d) a' q.2 ∧ DR C q.1 a' := by
  obtain ⟨w', out, a', k1, k2, k3⟩ := step_refines hL dv hR.host _ hpre
  unfold step
  cases hg : D.w.g s with
  | none => simp only [LFA.World.step, LFA.World.withG, hg] at k1; cases k1
  | some g =>
    simp only [LFA.World.step, LFA.World.withG, hg] at k1
    refine (hR.obj hg).bind ?_
    rintro _ rfl
    have hl : live a' = live a ∧ (∀ s g, a' s = .grid g → LaunchDims g.dim) ∧ out = .unit := by
      cases k2 with
      | resizeBlank => exact ⟨rfl, hR.lim, rfl⟩
      | resizeSame => exact ⟨rfl, hR.lim, rfl⟩
      | resize _ _ e h hb hg he =>
        exact ⟨live_grid h _, lim_upd hR.lim fun g h => by cases h; exact hlim, rfl⟩
    cases hr : g.resize C d D.w.h with
    | ub u => rw [hr] at k1; cases k1
    | throw x gh =>
      rw [hr] at k1
      simp only [LFA.World.ofGS, Except.ok.injEq, Prod.mk.injEq] at k1
      rw [← k1.2] at hl
      exact nomatch hl.2.2
    | ok u gh =>
      obtain ⟨g', h'⟩ := gh
      rw [hr] at k1
      simp only [LFA.World.ofGS, Except.ok.injEq, Prod.mk.injEq] at k1
      obtain ⟨rfl, rfl⟩ := k1
      refine (resize_ok hL (hR.dims hg) hlim hr).bind ?_
      rintro _ rfl
      exact Always.pure ⟨a', k2, k3, hl.2.1, by rw [hl.1]; exact hR.cells, by rw [hl.1]; exact hR.raw⟩

theorem step_swap (hL : C.L.WF) (dv : V) {D : World V} {a : AWorld V} (hR : DR C D a) (s t : Nat)
    (hpre : Spec.Pre C a (.swap s t)) :
    Always (step C D (.swap s t)) fun q => ∃ a', Post C dv a (.swap s t) a' q.2 ∧ DR C q.1 a' := by
  obtain ⟨w', out, a', k1, k2, k3⟩ := step_refines hL dv hR.host _ hpre
  obtain ⟨ag, ag', hs, ht, -⟩ := hpre
  have hns : a s ≠ .absent := by rw [hs]; exact fun h => nomatch h
  have hnt : a t ≠ .absent := by rw [ht]; exact fun h => nomatch h
  unfold step
  cases hg : D.w.g s with
  | none => simp only [LFA.World.step, LFA.World.withG, hg] at k1; cases k1
  | some g =>
    cases hg' : D.w.g t with
    | none => simp only [LFA.World.step, LFA.World.withG, hg, hg'] at k1; cases k1
    | some g' =>
      simp only [LFA.World.step, LFA.World.withG, hg, hg', Except.ok.injEq, Prod.mk.injEq] at k1
      obtain ⟨rfl, rfl⟩ := k1
      refine (hR.obj hg).bind ?_
      rintro _ rfl
      refine (hR.obj hg').bind ?_
      rintro _ rfl
      refine (hR.cells.swap (live_of hns) (live_of hnt)).bind fun cs hcs => ?_
      refine (hR.raw.swap (live_of hns) (live_of hnt)).bind fun rs hrs => ?_
      have hl : live a' = live a ∧ ∀ s g, a' s = .grid g → LaunchDims g.dim := by
        cases k2 with
        | swap _ _ g g' h h' =>
          constructor
          · rw [live_grid _, live_grid hns]
            by_cases he : t = s
            · subst he; rw [upd_self]; exact fun h => nomatch h
            · rw [upd_ne _ _ he]; exact hnt
          · refine lim_upd (lim_upd hR.lim fun x hx => ?_) fun x hx => ?_
            · cases hx; exact hR.lim t g' h'
            · cases hx; exact hR.lim s g h
      exact Always.pure ⟨a', k2, k3, hl.2, by rw [hl.1]; exact hcs, by rw [hl.1]; exact hrs⟩

/-! ### Transfers -/

theorem setCuda_none (L : Layout V) (e : Ext) (stride : Nat) (cells : List (Cell V)) (x y z : Nat) (b : Block V) :
    (∃ r, setCuda L e stride cells x y z 0 b r) ∧ ∀ r, setCuda L e stride cells x y z 0 b r → r = .ok b := by
  refine ⟨launch_exists _ _ _ _ _, fun r hr => ?_⟩
  obtain ⟨sched, hs, rfl⟩ := hr
  have hp := hs.perm
  have : ((threads (launchConfig (toInt32 0) 1 1).1 (launchConfig (toInt32 0) 1 1).2).map
      (setKernel L e stride cells 0 x y z (launchConfig (toInt32 0) 1 1).2)).flatten = [] := by
    rw [List.flatten_eq_nil_iff]
    intro l hl
    obtain ⟨t, _, rfl⟩ := List.mem_map.1 hl
    unfold setKernel
    dsimp only
    rw [if_pos (by omega)]
  rw [this, List.perm_nil] at hp
  subst hp
  rfl

/-- The memory of a grid has been modified. -/
theorem DR.modified {D : World V} {a : AWorld V} (hR : DR C D a) {s : Nat} {g : Grid} {id : Nat} {b' : Block V} {ag ag' : AGrid V}
    (hs : a s = .grid ag) (hg : D.w.g s = some g) (hid : g.data = some id) (hok : GridOK C (D.w.h.set id b') g ag')
    (hdim : ag'.dim = ag.dim) {cs : CA.World (Cell V)} {rs : CA.World (MByte V)} (hcs : Staging (live a) cs) (hrs : Staging (live a) rs) :
    DR C ⟨⟨D.w.h.set id b', D.w.g⟩, cs, rs⟩ (upd a s (.grid ag')) := by
  have hne : a s ≠ .absent := by rw [hs]; exact fun h => nomatch h
  refine ⟨hR.host.setBlock hg hid hok, lim_upd hR.lim fun x hx => ?_, by rw [live_grid hne]; exact hcs, by rw [live_grid hne]; exact hrs⟩
  cases hx; rw [hdim]; exact hR.lim s ag hs

theorem step_set (hL : C.L.WF) (htr : ∀ m ∈ C.L, m.ty.triv = true) (dv : V) {D : World V} {a : AWorld V} (hR : DR C D a)
    (s x y z : Nat) (cells : List (Cell V)) (hpre : Spec.Pre C a (.set s x y z cells)) (hlim : cells.length < 2 ^ 31) :
    Always (step C D (.set s x y z cells)) fun q => ∃ ag new, a s = .grid ag ∧ (∀ j, j < cells.length → cells[j]? = some (new j)) ∧
      q.2 = .unit ∧ DR C q.1 (upd a s (.grid { ag with cells := Spec.setRow ag.cells x y z cells.length new })) ∧
      Stage (live a) q.1.cs s (cells.map some) := by
  obtain ⟨ag, hs, hx, hy, hz⟩ := hpre
  obtain ⟨g, hg, hok⟩ := hR.host.grid hs
  have hne : a s ≠ .absent := by rw [hs]; exact fun h => nomatch h
  unfold step
  refine (hR.obj hg).bind ?_
  rintro _ rfl
  refine (trivial_ok htr).bind fun _ _ => ?_
  refine hR.cells.upload (live_of hne) cells rfl ?_
  intro q m hq hlen hval
  refine (structs_ok dv m.2).bind ?_
  rintro t ⟨t1, t2⟩
  have hsrc : ∀ j, j < cells.length → t[j * 1]? = some (cells[j]?.getD fun _ _ => dv) := by
    intro j hj
    rw [Nat.mul_one, List.getElem?_eq_getElem hj]
    exact t2 j _ (hval j _ (List.getElem?_eq_getElem hj))
  obtain ⟨id, b', h1, h2, h3⟩ := hok.setFunctor hL hsrc hx hy hz
  refine (callbackMut_ok h2 (f := fun e => setCuda C.L e 1 t x y z cells.length) fun e b b' he hb =>
    Always.of (C39_set_partial C.L hL e t x y z cells.length ?_ hlim b b' hb) rfl).bind ?_
  · rw [hok.1] at he
    exact fits_row (selectSizes_fits he) hx hy hz
  · rintro _ rfl
    refine Always.pure ⟨ag, _, hs, fun j hj => ?_, rfl, hR.modified hs hg h1 h3 rfl hq.staging hR.raw, hq⟩
    rw [List.getElem?_eq_getElem hj]; rfl

theorem step_broadcast (hL : C.L.WF) (htr : ∀ m ∈ C.L, m.ty.triv = true) (dv : V) {D : World V} {a : AWorld V} (hR : DR C D a)
    (s x y z : Nat) (cell : Cell V) (n : Nat) (hpre : Spec.Pre C a (.broadcast s x y z cell n)) (hlim : n < 2 ^ 31) :
    Always (step C D (.broadcast s x y z cell n)) fun q => ∃ a', Post C dv a (.broadcast s x y z cell n) a' q.2 ∧ DR C q.1 a' := by
  obtain ⟨ag, hs, hx, hy, hz⟩ := hpre
  obtain ⟨g, hg, hok⟩ := hR.host.grid hs
  have hne : a s ≠ .absent := by rw [hs]; exact fun h => nomatch h
  unfold step
  refine (hR.obj hg).bind ?_
  rintro _ rfl
  refine (trivial_ok htr).bind fun _ _ => ?_
  refine hR.cells.upload (live_of hne) [cell] rfl ?_
  intro q m hq hlen hval
  refine (structs_ok dv m.2).bind ?_
  rintro t ⟨t1, t2⟩
  have h0 : t[0]? = some cell := t2 0 _ (hval 0 _ rfl)
  obtain ⟨id, b', h1, h2, h3⟩ := hok.setFunctor hL (x := x) (stride := 0) (cells := t) (n := min n 1) (new := fun _ => cell)
    (fun j _ => by rw [Nat.mul_zero]; exact h0) (by omega) hy hz
  refine (callbackMut_ok h2 (f := fun e => setCuda C.L e 0 t x y z n) fun e b b' he hb => ?_).bind ?_
  · rw [hok.1] at he
    by_cases hn : n = 0
    · subst hn
      have : b' = b := by
        have : setFunctor C.L e 0 t x y z 0 b = .ok b := rfl
        rw [Nat.zero_min, this] at hb; cases hb; rfl
      subst this
      exact Always.of (setCuda_none _ _ _ _ _ _ _ _) rfl
    · have e1 : min n 1 = 1 := by omega
      rw [e1] at hb
      refine Always.of ⟨launch_exists _ _ _ _ _, fun r hr => broadcastCuda_first hL (by omega) hlim ?_ hb hr⟩ rfl
      have := fits_row (selectSizes_fits he) (x := x) (n := 1) (by omega) hy hz
      omega
  · rintro _ rfl
    exact Always.pure ⟨_, Spec.Post.broadcast a s x y z cell (min n 1) ag hs, hR.modified hs hg h1 h3 rfl hq.staging hR.raw⟩

theorem mapM_some {α : Type} (l : List α) : (l.map some).mapM id = some l := by
  induction l with
  | nil => rfl
  | cons a l ih => simp [List.mapM_cons, ih]

theorem step_get (hL : C.L.WF) (htr : ∀ m ∈ C.L, m.ty.triv = true) (dv : V) {D : World V} {a : AWorld V} (hR : DR C D a)
    (s x y z : Nat) (target : List (Cell V)) (hpre : Spec.Pre C a (.get s x y z target)) (hlim : target.length < 2 ^ 31)
    {l : List (Option (Cell V))} (hst : Stage (live a) D.cs s l) :
    Always (step C D (.get s x y z target)) fun q => ∃ stale : List (Cell V), stale.length = target.length ∧
      (∀ (j : Nat) (c : Cell V), j < target.length → l[j]? = some (some c) → stale[j]? = some c) ∧
      Spec.Post C dv a (.get s x y z stale) a q.2 ∧ DR C q.1 a := by
  obtain ⟨ag, hs, hx, hy, hz⟩ := hpre
  obtain ⟨g, hg, hok⟩ := hR.host.grid hs
  have hne : a s ≠ .absent := by rw [hs]; exact fun h => nomatch h
  unfold step
  refine (hR.obj hg).bind ?_
  rintro _ rfl
  refine (trivial_ok htr).bind fun _ _ => ?_
  refine (hst.resize target.length).bind ?_
  rintro q ⟨ac, cap, r1, r2, r3, r4, r5⟩
  have r6 : (l.take target.length ++ List.replicate (target.length - l.length) none).length = target.length := by simp; omega
  refine (Always.mem r1 r5).bind ?_
  rintro m ⟨A, m1, m2, m3, m4, m5, m6, m7, m8⟩
  refine (structs_ok dv m.2).bind ?_
  rintro t ⟨t1, t2⟩
  have hn : target.length ≤ t.length := by rw [t1, m4, ← r6]; exact m7
  obtain ⟨out, k1, k2, k3⟩ := hok.callbackRead (fun e b => getFunctor C.L e b x y z target.length t)
    (fun out => out.length = t.length ∧ ∀ j, j < target.length → out[j]? = (t[j]?).map (overlay C.L (ag.cells (x + j) y z))) (by
      intro e b he hv
      have hd := selectSizes_fits he
      obtain ⟨out, k1, k2, k3, k4⟩ := getFunctor_ok hL (fits_row hd hx hy hz) hv (val := fun j => ag.cells (x + j) y z)
        (fun r m k j hm hk hj => gridCont_row_isSome hd hx hy hz hj) t hn
      exact ⟨out, k1, k2, k3⟩)
  refine (callbackRead_ok k1 (f := fun e b => getCuda C.L e b x y z target.length t) fun e b b' he hb =>
    Always.of (C39_get_partial C.L e b x y z target.length hlim t b' hb) rfl).bind ?_
  rintro _ rfl
  dsimp only
  rw [m2]
  refine Staging.download r1 r2 r3 r4 (live_of hne) m1 (by rw [k2, t1, m4, m5]) (by rw [m6, m5]; exact m7) ?_
  intro q' hq' he
  rw [he, mapM_some]
  have hsz : A.size = target.length := by rw [m6, r6]
  refine Always.pure ⟨t.take target.length, by simpa using hn, fun j c hj hc => ?_, ?_, hR.host, hR.lim, hq', hR.raw⟩
  · rw [List.getElem?_take_of_lt hj]
    refine t2 j c ?_
    have hjl : j < l.length := (List.getElem?_eq_some_iff.1 hc).1
    have := m8.2 j c (by
      rw [List.getElem?_append_left (by rw [List.length_take]; omega), List.getElem?_take_of_lt hj, hc])
    rwa [List.getElem?_take_of_lt (by rw [r6]; exact hj)] at this
  refine Spec.Post.get a s x y z _ _ ag hs (by simp only [List.length_take, hsz, k2]) fun j t' ht' => ?_
  have hj : j < target.length := by
    have := (List.getElem?_eq_some_iff.1 ht').1
    rw [List.length_take] at this; omega
  rw [List.getElem?_take_of_lt hj] at ht'
  rw [hsz, List.getElem?_take_of_lt hj, k3 j hj, ht']; rfl

theorem step_load (hL : C.L.WF) (htr : ∀ m ∈ C.L, m.ty.triv = true) (dv : V) {D : World V} {a : AWorld V} (hR : DR C D a)
    (s : Nat) (ss : List Streak) (src : Block V) (n : Nat) (hpre : Spec.Pre C a (.load s ss src n)) (hlim : ∀ st ∈ ss, st.len < 2 ^ 31) :
    Always (step C D (.load s ss src n)) fun q => ∃ a', Post C dv a (.load s ss src n) a' q.2 ∧ DR C q.1 a' := by
  obtain ⟨ag, hs, hin, hn, rows, hrl, hpk⟩ := hpre
  obtain ⟨g, hg, hok⟩ := hR.host.grid hs
  have hne : a s ≠ .absent := by rw [hs]; exact fun h => nomatch h
  have hsize := hpk.size
  rw [structBytes_eq] at hsize
  unfold step
  refine (hR.obj hg).bind ?_
  rintro _ rfl
  refine (trivial_ok htr).bind fun _ _ => ?_
  dsimp only
  rw [if_neg (by omega)]
  refine hR.raw.upload (live_of hne) (blockBytes src (n * aggSize C.L)) (by simp [blockBytes]) ?_
  intro p m hp hlen hval
  have hlen' : n * aggSize C.L ≤ m.2.length := by simpa [blockBytes] using hlen
  have hget : ∀ i, i < n * aggSize C.L → (bytes m.2).get i = copied (src.get i) := by
    intro i hi
    have := hval i (src.get i) (by simp [blockBytes, hi])
    simp only [bytes, this]
  have hpk' : Spec.Packed C.L n rows (bytes m.2) := by
    refine ⟨by rw [structBytes_eq]; exact hlen', fun r mb k i row hm hk hr j hj => ?_⟩
    have hi : i < n := by
      have := (List.getElem?_eq_some_iff.1 hr).1; omega
    have h1 := hpk.vals r mb k i row hm hk hr j hj
    have h2 := slot_in_bounds (P := n) hm hk hi
    rw [packed_addr] at h1 ⊢
    rw [hget _ (by rw [Nat.mul_comm]; omega), h1]
    have ht := htr mb (List.mem_of_getElem? hm)
    simp [copied, MByte.nonTriv, ht]
  obtain ⟨id, b', h1, h2, h3⟩ := hok.load hL hin hrl hn hpk'
  refine (callbackMut_ok h2 (f := fun e => loadCuda C.L e (bytes m.2) n ss 0) fun e b b' he hb =>
    Always.of (C39_load_partial C.L hL e (bytes m.2) n ss 0 (fun st hst => ⟨?_, hlim st hst⟩) b b' hb) rfl).bind ?_
  · rw [hok.1] at he
    obtain ⟨q1, q2, q3⟩ := hin st hst
    exact fits_row (selectSizes_fits he) q1 q2 q3
  · rintro _ rfl
    exact Always.pure ⟨_, Spec.Post.load a s ss src n ag rows hs hrl hpk, hR.modified hs hg h1 h3 rfl hR.cells hp.staging⟩

theorem sum_coords (ss : List Streak) : (ss.map Streak.len).sum = (Spec.coords ss).length := by
  induction ss with
  | nil => rfl
  | cons s ss ih => rw [List.map_cons, List.sum_cons, ih, coords_cons, List.length_append, rowCoords_length]

theorem step_save (hL : C.L.WF) (htr : ∀ m ∈ C.L, m.ty.triv = true) (dv : V) {D : World V} {a : AWorld V} (hR : DR C D a)
    (s : Nat) (ss : List Streak) (tgt : Block V) (n : Nat) (hpre : Spec.Pre C a (.save s ss tgt n)) (hlim : ∀ st ∈ ss, st.len < 2 ^ 31) :
    Always (step C D (.save s ss tgt n)) fun q => ∃ a', Post C dv a (.save s ss tgt n) a' q.2 ∧ DR C q.1 a' := by
  obtain ⟨ag, hs, hin, hn, hrr⟩ := hpre
  obtain ⟨g, hg, hok⟩ := hR.host.grid hs
  have hne : a s ≠ .absent := by rw [hs]; exact fun h => nomatch h
  have hsize := hrr.size
  rw [structBytes_eq] at hsize
  unfold step
  refine (hR.obj hg).bind ?_
  rintro _ rfl
  refine (trivial_ok htr).bind fun _ _ => ?_
  dsimp only
  obtain ⟨l, hl⟩ := hR.raw.stage (live_of hne)
  refine (hl.resize (n * aggSize C.L)).bind ?_
  rintro p ⟨ac, cap, r1, r2, r3, r4, r5⟩
  have r6 : (l.take (n * aggSize C.L) ++ List.replicate (n * aggSize C.L - l.length) none).length = n * aggSize C.L := by simp; omega
  refine (Always.mem r1 r5).bind ?_
  rintro m ⟨A, m1, m2, m3, m4, m5, m6, m7, m8⟩
  have hcap : n * aggSize C.L ≤ m.2.length := by rw [m4, ← r6]; exact m7
  have hready : Spec.RawReady C.L n (bytes m.2) := by
    refine ⟨by rw [structBytes_eq]; exact hcap, fun r mb k i _ _ _ _ j _ => ?_, fun r mb k i hm _ _ ht => ?_⟩
    · unfold bytes
      dsimp only
      split
      · unfold copied
        split
        · rfl
        · rename_i h; simpa using h
      · rfl
    · rw [htr mb (List.mem_of_getElem? hm)] at ht; cases ht
  obtain ⟨out, k1, k2, k3, k4⟩ := hok.save hL hin hn hready
  refine (callbackRead_ok k1 (f := fun e b => saveCuda C.L e b n ss 0 (bytes m.2)) fun e b b' he hb =>
    Always.of (C39_save_partial C.L e hL b n ss 0 (by rw [sum_coords]; omega) hlim (bytes m.2) b' hb) rfl).bind ?_
  rintro _ rfl
  dsimp only
  rw [if_neg (by omega), m2]
  refine Staging.download r1 r2 r3 r4 (live_of hne) m1 (by simp [blockBytes, m4, m5]) (by rw [m6, m5]; exact m7) ?_
  intro p' hp' he
  refine Always.pure ⟨a, ?_, hR.host, hR.lim, hR.cells, hp'⟩
  have hsz : A.size = n * aggSize C.L := by rw [m6, r6]
  have hq : ∀ i, i < n * aggSize C.L → p'.2[i]? = some (some (out.get i)) := by
    intro i hi
    rw [he, List.getElem?_map, hsz, List.getElem?_take_of_lt hi]
    simp [blockBytes, show i < m.2.length by omega]
  have hq' : ∀ i, n * aggSize C.L ≤ i → p'.2[i]? = none := by
    intro i hi
    rw [he, List.getElem?_eq_none]
    simp only [List.length_map, List.length_take, hsz]; omega
  refine Spec.Post.save a s ss tgt _ n ag hs ⟨by rw [structBytes_eq]; exact hsize, fun r mb k i row hm hk hr j hj => ?_⟩ rfl ?_
  · have hi : i < n := by
      have := (List.getElem?_eq_some_iff.1 hr).1
      rw [List.length_map] at this; omega
    have h1 := k2.vals r mb k i row hm hk hr j hj
    have h2 := slot_in_bounds (P := n) hm hk hi
    rw [packed_addr] at h1 ⊢
    simp only [hq _ (show slot n (offset C.L r) mb.ty.size k i + j < n * aggSize C.L by rw [Nat.mul_comm]; omega)]
    exact h1
  · intro i hi
    rw [structBytes_eq] at hi
    simp only [hq' i hi]

/-! ### Programs -/

/-- Each call within its contract, and within the limits of kernel launches, has an outcome, and each of its outcomes is as specified. -/
theorem step_all (hL : C.L.WF) (htr : ∀ m ∈ C.L, m.ty.triv = true) (dv : V) {D : World V} {a : AWorld V} (hR : DR C D a)
    (op : Op V) (hpre : Spec.Pre C a op) (hlim : Limits op) :
    Always (step C D op) fun q => ∃ a', Post C dv a op a' q.2 ∧ DR C q.1 a' := by
  cases op with
  | new s d => exact step_new hL dv hR s d hpre hlim
  | copy s t => cases hlim
  | assign s t => cases hlim
  | swap s t => exact step_swap hL dv hR s t hpre
  | resize s d => exact step_resize hL dv hR s d hpre hlim
  | destroy s => exact step_destroy hL dv hR s hpre
  | set s x y z cells =>
    refine (step_set hL htr dv hR s x y z cells hpre hlim).mono ?_
    rintro q ⟨ag, new, h1, h2, h3, h4, -⟩
    exact ⟨_, by rw [h3]; exact Spec.Post.set a s x y z cells new ag h1 h2, h4⟩
  | broadcast s x y z cell n => exact step_broadcast hL htr dv hR s x y z cell n hpre hlim
  | get s x y z target =>
    have hne : a s ≠ .absent := by
      obtain ⟨ag, hs, -⟩ := hpre
      rw [hs]; exact fun h => nomatch h
    obtain ⟨l, hl⟩ := hR.cells.stage (live_of hne)
    refine (step_get hL htr dv hR s x y z target hpre hlim hl).mono ?_
    rintro q ⟨stale, h1, -, h2, h3⟩
    exact ⟨a, ⟨stale, h1, h2⟩, h3⟩
  | load s ss src n => exact step_load hL htr dv hR s ss src n hpre hlim
  | save s ss tgt n => exact step_save hL htr dv hR s ss tgt n hpre hlim
  | poke s x y z X Y Z r k v =>
    refine host_step hL dv hR _ hpre (fun _ _ _ _ _ _ => by simp) (fun _ _ _ _ _ => by simp) ?_ ?_
    · intro a' out h
      cases h with
      | poke _ _ _ _ _ _ _ _ _ _ g px py pz h => exact live_grid (by rw [h]; exact fun h => nomatch h) _
    · intro a' out h
      cases h with
      | poke _ _ _ _ _ _ _ _ _ _ g px py pz h => exact lim_upd hR.lim fun x hx => by cases hx; exact hR.lim s g h
  | peek s x y z X Y Z r k =>
    refine host_step hL dv hR _ hpre (fun _ _ _ _ _ _ => by simp) (fun _ _ _ _ _ => by simp) ?_ ?_ <;>
    · intro a' out h
      cases h
      first | rfl | exact hR.lim
  | dims s =>
    refine host_step hL dv hR _ hpre (fun _ _ _ _ _ _ => by simp) (fun _ _ _ _ _ => by simp) ?_ ?_ <;>
    · intro a' out h
      cases h <;> first | rfl | exact hR.lim
  | extents s =>
    refine host_step hL dv hR _ hpre (fun _ _ _ _ _ _ => by simp) (fun _ _ _ _ _ => by simp) ?_ ?_ <;>
    · intro a' out h
      cases h
      first | rfl | exact hR.lim
  | byteSize s =>
    refine host_step hL dv hR _ hpre (fun _ _ _ _ _ _ => by simp) (fun _ _ _ _ _ => by simp) ?_ ?_ <;>
    · intro a' out h
      cases h
      first | rfl | exact hR.lim

end
end Dev
end LFA
