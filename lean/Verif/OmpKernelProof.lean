import Verif.OmpKernel
import Verif.Props.GridKernel

/-
  Proofs about vectorised kernels executed by several threads (Verif/OmpKernel.lean).
-/
set_option linter.unusedSectionVars false
namespace LFA.GK
open SV (Expr Entry FEnv Mem Writes FOps Transfers Reqs Faithful lane)
open Thr

variable {V : Type} [DecidableEq V] {C : Cfg V} {dv : V} {w : Nat}

theorem last_append (p : Int) (ws ws' : Writes w) :
    last p (ws ++ ws') = match last p ws' with | some y => some y | none => last p ws := by
  induction ws with
  | nil => simp only [List.nil_append, last]; cases last p ws' <;> rfl
  | cons c ws ih =>
    obtain ⟨q, x⟩ := c
    simp only [List.cons_append, last, ih]
    cases last p ws' <;> rfl

/-- What the threads are to do, and why it is fine: `cs i` are the calls of thread `i`, `σ` the values before. -/
structure Work (C : Cfg V) (B : Bits w V) (base : Nat → Nat) (K : Stencil w) (A : Pair) (N : Nat) (Q1 Q : Reqs) (s o : Nat) (σ : Loc → V)
    (β : Int × Int × Int → Nat → BitVec w) (dom : Loc → Prop) (cs : Nat → List At) : Prop where
  arity : ∀ i, ∀ c ∈ cs i, c.a = 1 ∨ c.a = N
  ptr : ∀ i, ∀ c ∈ cs i, Pointers C base K A (if c.a = N then Q else Q1) c
  dst : ∀ i, ∀ p ∈ cells (cs i), dom (K.dstLoc o p.1 p.2.1 p.2.2)
  src : ∀ i, ∀ p ∈ cells (cs i), ∀ j ∈ K.code.vars, dom (K.srcLoc s o j p.1 p.2.1 p.2.2) ∧
    B.bits (σ (K.srcLoc s o j p.1 p.2.1 p.2.2)) = some (β p j)
  hazard : ∀ i, K.NoHazard s o (cells (cs i))
  nodup : ∀ i, (cells (cs i)).Nodup
  apart : ∀ i i', i ≠ i' → ∀ p ∈ cells (cs i), ∀ p' ∈ cells (cs i'), p ≠ p' ∧
    ∀ j ∈ K.code.vars, K.dstLoc o p'.1 p'.2.1 p'.2.2 ≠ K.srcLoc s o j p.1 p.2.1 p.2.2

/-- Invariant of a thread with the calls `cs`, if objects have the values `μ`. -/
def TInv (C : Cfg V) (B : Bits w V) (base : Nat → Nat) (K : Stencil w) (A : Pair) (F : FOps w) (o : Nat) (σ : Loc → V)
    (β : Int × Int × Int → Nat → BitVec w) {e1 e : Entry w} (cs : List At) (th : Thread e1 e) (μ : Loc → V) : Prop :=
  ∃ done : List At, (∀ p ∈ cells done, μ (K.dstLoc o p.1 p.2.1 p.2.2) = B.val (K.code.scalar F (β p))) ∧
    (∀ p ∈ cells th.calls, μ (K.dstLoc o p.1 p.2.1 p.2.2) = σ (K.dstLoc o p.1 p.2.1 p.2.2)) ∧
    match th.stat with
    | .idle => done ++ th.calls = cs
    | .loading c todo regs => done ++ c :: th.calls = cs ∧
        (∀ p ∈ c.cells, μ (K.dstLoc o p.1 p.2.1 p.2.2) = σ (K.dstLoc o p.1 p.2.1 p.2.2)) ∧
        ∃ pre, pre ++ todo = K.code.vars ∧ ∀ j ∈ pre, ∃ v, regs j = some v ∧
          ∀ k < (entryOf e1 e c).impl.N, lane (entryOf e1 e c).impl v k = β (c.x + (k : Nat), c.y, c.z) j
    | .storing c ws => done ++ c :: th.calls = cs ∧ ∃ m q ws0, C.L[K.dst.r]? = some m ∧ m.ty.size = w / 8 ∧
        q * (w / 8 : Nat) = base A.idt + off C.L A.et c.x c.y c.z K.dst m ∧ (∀ x ∈ ws, ∃ k < c.a, x.1 = q + (k : Nat)) ∧
        (∀ k < c.a, last (q + (k : Nat)) (ws0 ++ ws) = some (K.code.scalar F (β (c.x + (k : Nat), c.y, c.z)))) ∧
        ∀ k < c.a, μ (K.dstLoc o (c.x + (k : Nat)) c.y c.z) =
          match last (q + (k : Nat)) ws0 with | some x => B.val x | none => σ (K.dstLoc o (c.x + (k : Nat)) c.y c.z)

/-- Only the values of the objects which the thread writes matter. -/
theorem TInv.frame {B : Bits w V} {base : Nat → Nat} {K : Stencil w} {A : Pair} {F : FOps w} {o : Nat} {σ : Loc → V}
    {β : Int × Int × Int → Nat → BitVec w} {e1 e : Entry w} {cs : List At} {th : Thread e1 e} {μ μ' : Loc → V}
    (h : TInv C B base K A F o σ β cs th μ)
    (hμ : ∀ p ∈ cells cs, μ' (K.dstLoc o p.1 p.2.1 p.2.2) = μ (K.dstLoc o p.1 p.2.1 p.2.2)) : TInv C B base K A F o σ β cs th μ' := by
  obtain ⟨done, h1, h2, h3⟩ := h
  have cells_append : ∀ a b : List At, cells (a ++ b) = cells a ++ cells b := fun a b => List.flatMap_append
  have cells_cons : ∀ (a : At) (b : List At), cells (a :: b) = a.cells ++ cells b := fun a b => rfl
  obtain ⟨calls, stat⟩ := th
  cases stat with
  | idle =>
    simp only at h2 h3
    subst h3
    simp only [cells_append, List.mem_append] at hμ
    exact ⟨done, fun p hp => by rw [hμ p (.inl hp)]; exact h1 p hp, fun p hp => by rw [hμ p (.inr hp)]; exact h2 p hp, rfl⟩
  | loading c todo regs =>
    simp only at h2 h3
    obtain ⟨rfl, h4, h5⟩ := h3
    simp only [cells_append, cells_cons, List.mem_append] at hμ
    exact ⟨done, fun p hp => by rw [hμ p (.inl hp)]; exact h1 p hp, fun p hp => by rw [hμ p (.inr (.inr hp))]; exact h2 p hp, rfl,
      fun p hp => by rw [hμ p (.inr (.inl hp))]; exact h4 p hp, h5⟩
  | storing c ws =>
    simp only at h2 h3
    obtain ⟨rfl, m, q, ws0, k1, k2, k3, k4, k5, k6⟩ := h3
    simp only [cells_append, cells_cons, List.mem_append] at hμ
    refine ⟨done, fun p hp => by rw [hμ p (.inl hp)]; exact h1 p hp, fun p hp => by rw [hμ p (.inr (.inr hp))]; exact h2 p hp, rfl,
      m, q, ws0, k1, k2, k3, k4, k5, fun k hk => ?_⟩
    rw [hμ _ (.inr (.inl (mem_cells.2 ⟨k, hk, rfl⟩)))]
    exact k6 k hk

theorem cells_append (a b : List At) : cells (a ++ b) = cells a ++ cells b := List.flatMap_append

theorem cells_cons (a : At) (b : List At) : cells (a :: b) = a.cells ++ cells b := rfl

theorem entryOf_N {e1 e : Entry w} (h1 : e1.impl.N = 1) {c : At} (hc : c.a = 1 ∨ c.a = e.impl.N) : (entryOf e1 e c).impl.N = c.a := by
  unfold entryOf
  split
  · rename_i h; exact h.symm
  · rename_i h; rw [h1]; exact (hc.resolve_right h).symm

variable {B : Bits w V} {base : Nat → Nat} {E : FEnv} {K : Stencil w} {A : Pair} {e1 e : Entry w} {F : FOps w}
  {Q1 Q : Reqs} {d f c : Bool}

/-- The target supports what the functor uses. -/
structure Hardware (E : FEnv) (K : Stencil w) (e1 e : Entry w) (F : FOps w) (Q1 Q : Reqs) (d f c : Bool) : Prop where
  faith1 : Faithful e1.impl e1.cmp E F d f c
  faith : Faithful e.impl e.cmp E F d f c
  trans1 : Transfers e1.impl Q1 E
  trans : Transfers e.impl Q E
  n1 : e1.impl.N = 1
  arity : 0 < e.impl.N
  size : 0 < w / 8
  code : K.code.only d f c = true

theorem Hardware.faithful (H : Hardware E K e1 e F Q1 Q d f c) (ca : At) :
    Faithful (entryOf e1 e ca).impl (entryOf e1 e ca).cmp E F d f c := by
  by_cases h : ca.a = e.impl.N
  · rw [show entryOf e1 e ca = e from if_pos h]; exact H.faith
  · rw [show entryOf e1 e ca = e1 from if_neg h]; exact H.faith1

theorem Hardware.transfers (H : Hardware E K e1 e F Q1 Q d f c) (ca : At) :
    Transfers (entryOf e1 e ca).impl (if ca.a = e.impl.N then Q else Q1) E := by
  unfold entryOf; split_ifs
  · exact H.trans
  · exact H.trans1

theorem Hardware.pos (H : Hardware E K e1 e F Q1 Q d f c) (ca : At) : 0 < (entryOf e1 e ca).impl.N := by
  unfold entryOf; split_ifs
  · exact H.arity
  · have := H.n1; omega

variable {s o : Nat} {σ : Loc → V} {β : Int × Int × Int → Nat → BitVec w} {dom : Loc → Prop} {cs : Nat → List At}

/-- Invariant of all threads. -/
structure Inv (C : Cfg V) (dv : V) (B : Bits w V) (base : Nat → Nat) (K : Stencil w) (A : Pair) (F : FOps w) (o : Nat) (σ : Loc → V)
    (β : Int × Int × Int → Nat → BitVec w) (dom : Loc → Prop) (cs : Nat → List At) (g : Nat → Option Grid) (S : Team e1 e V) (a : AWorld V) :
    Prop where
  rel : R C ⟨S.h, g⟩ a
  valid : Valid C dv ⟨S.h, g⟩
  inside : ∀ l, InA C a l ↔ dom l
  thr : ∀ i, TInv C B base K A F o σ β (cs i) (S.threads i) (valA dv a)
  rest : ∀ l, dom l → (∀ i, ∀ p ∈ cells (cs i), l ≠ K.dstLoc o p.1 p.2.1 p.2.2) → valA dv a l = σ l

/-- What a call reads has not been written by any thread. -/
theorem Inv.unread {g : Nat → Option Grid} {S : Team e1 e V} {a : AWorld V} (I : Inv C dv B base K A F o σ β dom cs g S a)
    (hW : Work C B base K A e.impl.N Q1 Q s o σ β dom cs) {i : Nat} {done rest : List At} {ca : At} (hcs : done ++ ca :: rest = cs i)
    (hv : ∀ p ∈ cells (ca :: rest), valA dv a (K.dstLoc o p.1 p.2.1 p.2.2) = σ (K.dstLoc o p.1 p.2.1 p.2.2)) {p : Int × Int × Int}
    (hp : p ∈ ca.cells) {j : Nat} (hj : j ∈ K.code.vars) :
    valA dv a (K.srcLoc s o j p.1 p.2.1 p.2.2) = σ (K.srcLoc s o j p.1 p.2.1 p.2.2) := by
  have hpi : p ∈ cells (cs i) := by
    rw [← hcs, cells_append, cells_cons]; simp [hp]
  by_cases hown : ∀ i', ∀ p' ∈ cells (cs i'), K.srcLoc s o j p.1 p.2.1 p.2.2 ≠ K.dstLoc o p'.1 p'.2.1 p'.2.2
  · exact I.rest _ (hW.src i p hpi j hj).1 hown
  · push Not at hown
    obtain ⟨i', p', hp', he⟩ := hown
    by_cases hii : i = i'
    · subst hii
      rw [← hcs, cells_append, List.mem_append] at hp'
      rcases hp' with hp' | hp'
      · have := hW.hazard i
        rw [← hcs, cells_append] at this
        exact absurd he.symm ((List.pairwise_append.1 this).2.2 p' hp' p (by rw [cells_cons]; simp [hp]) j hj)
      · rw [he]; exact hv p' hp'
    · exact absurd he.symm ((hW.apart i i' hii p hpi p' hp').2 j hj)

theorem upd_apply {α : Type} (f : Nat → α) (s : Nat) (a : α) (i : Nat) : World.upd f s a i = if i = s then a else f i := rfl

/-- A step which does not change memory. -/
theorem Inv.quiet {g : Nat → Option Grid} {S : Team e1 e V} {a : AWorld V} (I : Inv C dv B base K A F o σ β dom cs g S a) {i : Nat}
    {th : Thread e1 e} (h : TInv C B base K A F o σ β (cs i) th (valA dv a)) :
    Inv C dv B base K A F o σ β dom cs g ⟨World.upd S.threads i th, S.h⟩ a where
  rel := I.rel
  valid := I.valid
  inside := I.inside
  thr i' := by
    simp only [upd_apply]
    split
    · rename_i hi; subst hi; exact h
    · exact I.thr i'
  rest := I.rest

/-- Steps preserve the invariant, none has undefined behaviour. -/
theorem Inv.step (hL : C.L.WF) (H : Hardware E K e1 e F Q1 Q d f c) (hW : Work C B base K A e.impl.N Q1 Q s o σ β dom cs)
    {g : Nat → Option Grid} {S : Team e1 e V} (hs : Has C ⟨S.h, g⟩ s A.es A.ids) (ho : Has C ⟨S.h, g⟩ o A.et A.idt) {a : AWorld V}
    (I : Inv C dv B base K A F o σ β dom cs g S a) (i : Nat) :
    ∃ r a', stepT ⟨C.L, B, base, E⟩ K A e1 e (S.threads i) S.h = some r ∧
      Inv C dv B base K A F o σ β dom cs g ⟨World.upd S.threads i r.1, r.2⟩ a' := by
  have hT := I.thr i
  cases hth : S.threads i with
  | mk calls stat =>
  rw [hth] at hT
  obtain ⟨done, t1, t2, t3⟩ := hT
  simp only at t2
  cases stat with
  | idle =>
    simp only at t3
    cases calls with
    | nil => exact ⟨_, a, rfl, I.quiet ⟨done, t1, t2, t3⟩⟩
    | cons ca calls =>
      rw [cells_cons] at t2
      exact ⟨_, a, rfl, I.quiet ⟨done, t1, fun p hp => t2 p (List.mem_append_right _ hp), t3, fun p hp => t2 p (List.mem_append_left _ hp), [], rfl, by simp⟩⟩
  | loading ca todo regs =>
    obtain ⟨k1, k2, pre, k3, k4⟩ := t3
    have hmem : ca ∈ cs i := by rw [← k1]; simp
    have hN := entryOf_N H.n1 (hW.arity i ca hmem)
    have hcell : ∀ k < ca.a, (ca.x + (k : Nat), ca.y, ca.z) ∈ ca.cells := fun k hk => mem_cells.2 ⟨k, hk, rfl⟩
    have hcells : ∀ p ∈ ca.cells, p ∈ cells (cs i) := fun p hp => by rw [← k1, cells_append, cells_cons]; simp [hp]
    have hall : ∀ p ∈ cells (ca :: calls), valA dv a (K.dstLoc o p.1 p.2.1 p.2.2) = σ (K.dstLoc o p.1 p.2.1 p.2.2) := by
      intro p hp
      rw [cells_cons, List.mem_append] at hp
      exact hp.elim (k2 p) (t2 p)
    obtain ⟨q1, al, q2, q3⟩ := hW.ptr i ca hmem
    cases todo with
    | cons j todo =>
      have hj : j ∈ K.code.vars := by rw [← k3]; simp
      obtain ⟨v, l1, l2⟩ := load_ok (dv := dv) hL B base E (K := K) (A := A) (e := entryOf e1 e ca) (H.transfers ca) H.size (H.pos ca) I.rel hs ho
        ca.x ca.y ca.z j (q1 j hj)
        (fun k hk => (I.inside _).2 (hW.src i _ (hcells _ (hcell k (hN ▸ hk))) j hj).1) (fun k => β (ca.x + (k : Nat), ca.y, ca.z) j)
        (fun k hk => by
          have := I.unread hW k1 hall (hcell k (hN ▸ hk)) hj
          simp only at this
          rw [this]
          exact (hW.src i _ (hcells _ (hcell k (hN ▸ hk))) j hj).2)
      refine ⟨(⟨calls, .loading ca todo fun i => if i = j then some v else regs i⟩, S.h), a, by simp only [stepT, l1, Option.map_some],
        I.quiet ⟨done, t1, t2, k1, k2, pre ++ [j], by simp [k3], fun j' hj' => ?_⟩⟩
      by_cases hjj : j' = j
      · subst hjj; exact ⟨v, by simp, l2⟩
      · simp only [hjj, if_false]
        refine k4 j' ?_
        rw [List.mem_append, List.mem_singleton] at hj'
        exact hj'.resolve_right hjj
    | nil =>
      rw [List.append_nil] at k3
      subst k3
      obtain ⟨v, v1, v2⟩ := (H.faithful ca).vec regs (fun k j => β (ca.x + (k : Nat), ca.y, ca.z) j) K.code H.code k4
      obtain ⟨m, m1, m2, ⟨q, hq⟩, m4⟩ := q3
      have hq' : q * (w / 8 : Nat) = base A.idt + off C.L A.et ca.x ca.y ca.z K.dst m := by rw [Int.mul_comm, ← hq]; rfl
      have := H.size
      obtain ⟨ws, s1, s2, s3⟩ := store_last (Mode.store_ok (H.transfers ca) K.mode q2) (by omega) v q (by rw [Int.mul_comm, ← hq]; exact m4)
      rw [hN] at s2 s3 v2
      refine ⟨(⟨calls, .storing ca ws⟩, S.h), a, ?_, I.quiet ⟨done, t1, t2, k1, m, q, [], m1, m2, hq', s2, ?_, ?_⟩⟩
      · simp only [stepT, v1, Option.bind_some, m1]
        rw [elem, if_pos ⟨m2, ⟨q, hq⟩⟩, hq, Int.mul_ediv_cancel_left _ (by omega)]
        simp only [Option.bind_some, s1, Option.map_some]
      · intro k hk
        rw [List.nil_append, s3 k hk, v2 k hk]
      · intro k hk
        simp only [last]
        exact k2 _ (hcell k hk)
  | storing ca ws =>
    obtain ⟨k1, m, q, ws0, m1, m2, hq, k4, k5, k6⟩ := t3
    have hmem : ca ∈ cs i := by rw [← k1]; simp
    have hcell : ∀ k < ca.a, (ca.x + (k : Nat), ca.y, ca.z) ∈ ca.cells := fun k hk => mem_cells.2 ⟨k, hk, rfl⟩
    have hcells : ∀ p ∈ ca.cells, p ∈ cells (cs i) := fun p hp => by rw [← k1, cells_append, cells_cons]; simp [hp]
    cases ws with
    | nil =>
      refine ⟨_, a, rfl, I.quiet ⟨done ++ [ca], ?_, t2, by simpa using k1⟩⟩
      intro p hp
      rw [cells_append, List.mem_append] at hp
      rcases hp with hp | hp
      · exact t1 p hp
      · have hp' : p ∈ ca.cells := by simpa [cells] using hp
        obtain ⟨k, hk, rfl⟩ := mem_cells.1 hp'
        have h5 := k5 k hk
        rw [List.append_nil] at h5
        simp only [k6 k hk, h5]
    | cons wr ws =>
      obtain ⟨j, hj, hwj⟩ := k4 wr List.mem_cons_self
      obtain ⟨qc, xc⟩ := wr
      simp only at hwj
      subst hwj
      have hd := hW.dst i _ (hcells _ (hcell j hj))
      simp only at hd
      obtain ⟨b, b1, a1, h1, h2, h3, h4, h5, h6⟩ := write_ok (dv := dv) hL I.rel ho ((I.inside _).2 hd) m1 (B.val xc)
      have e2 : (q + (j : Nat)) * (w / 8 : Nat) - base A.idt = off C.L A.et (ca.x + (j : Nat)) ca.y ca.z K.dst m := by
        rw [off_add, Int.add_mul, hq, m2]; ring
      have hval : ∀ l, dom l → valA dv a1 l = if l = K.dstLoc o (ca.x + (j : Nat)) ca.y ca.z then B.val xc else valA dv a l :=
        fun l hl => h6 l ((I.inside l).2 hl)
      -- other cells of all threads keep their values
      have hother : ∀ i', ∀ p ∈ cells (cs i'), p ≠ (ca.x + (j : Nat), ca.y, ca.z) →
          valA dv a1 (K.dstLoc o p.1 p.2.1 p.2.2) = valA dv a (K.dstLoc o p.1 p.2.1 p.2.2) := by
        intro i' p hp hne
        rw [hval _ (hW.dst i' p hp), if_neg]
        intro he
        obtain ⟨e1, e2, e3⟩ := dstLoc_inj he
        exact hne (by rw [← e1, ← e2, ← e3])
      have hnd := hW.nodup i
      rw [← k1, cells_append, cells_cons, List.nodup_append, List.nodup_append] at hnd
      refine ⟨(⟨calls, .storing ca ws⟩, S.h.set A.idt b1), a1, ?_, ?_⟩
      · simp only at h1
        simp only [stepT, m1, h1, put, e2, h2, Except.bind]
      · refine ⟨h4, ?_, fun l => (h5 l).trans (I.inside l), ?_, ?_⟩
        · obtain ⟨ag, m', j1, j2⟩ := (I.inside _).2 hd
          exact I.valid.next hL I.rel (fun s => by simp) (op := .poke o (ca.x + (j : Nat)) ca.y ca.z K.dst.X K.dst.Y K.dst.Z K.dst.r K.dst.k (B.val xc))
            ⟨ag, m', j1, j2⟩ h3
        · intro i'
          simp only [upd_apply]
          split
          · rename_i hi
            subst hi
            refine ⟨done, fun p hp => ?_, fun p hp => ?_, k1, m, q, ws0 ++ [(q + (j : Nat), xc)], m1, m2, hq,
              fun x hx => k4 x (List.mem_cons_of_mem _ hx), fun k hk => ?_, fun k hk => ?_⟩
            · rw [hother i' p (by rw [← k1, cells_append]; simp [hp])]
              · exact t1 p hp
              · intro he
                exact hnd.2.2 p hp _ (List.mem_append_left _ (hcell j hj)) he
            · rw [hother i' p (by rw [← k1, cells_append, cells_cons]; simp [hp])]
              · exact t2 p hp
              · intro he
                exact hnd.2.1.2.2 _ (hcell j hj) p hp he.symm
            · rw [List.append_assoc]; exact k5 k hk
            · rw [last_append]
              simp only [last]
              by_cases hkj : k = j
              · subst hkj
                rw [hval _ hd]; simp
              · rw [if_neg (by omega)]
                simp only
                have := hother i' _ (hcells _ (hcell k hk)) (by simp; omega)
                simp only at this
                rw [this]
                exact k6 k hk
          · rename_i hi
            refine (I.thr i').frame fun p hp => hother i' p hp ?_
            exact (hW.apart i' i hi p hp _ (hcells _ (hcell j hj))).1
        · intro l hl hne
          rw [hval l hl, if_neg (hne i _ (hcells _ (hcell j hj)))]
          exact I.rest l hl hne

/-! ### Schedules -/

theorem exec_append (T : Env w V) (is is' : List Nat) (S : Team e1 e V) :
    exec T K A e1 e (is ++ is') S = (exec T K A e1 e is S).bind (exec T K A e1 e is') := by
  induction is generalizing S with
  | nil => rfl
  | cons i is ih =>
    simp only [List.cons_append, exec]
    cases stepT T K A e1 e (S.threads i) S.h with
    | none => rfl
    | some r => exact ih _

/-- All schedules preserve the invariant. -/
theorem Inv.exec (hL : C.L.WF) (H : Hardware E K e1 e F Q1 Q d f c) (hW : Work C B base K A e.impl.N Q1 Q s o σ β dom cs)
    {g : Nat → Option Grid} (hs : ∀ h, Has C ⟨h, g⟩ s A.es A.ids) (ho : ∀ h, Has C ⟨h, g⟩ o A.et A.idt) (sched : List Nat) {S : Team e1 e V}
    {a : AWorld V} (I : Inv C dv B base K A F o σ β dom cs g S a) :
    ∃ S' a', GK.exec ⟨C.L, B, base, E⟩ K A e1 e sched S = some S' ∧ Inv C dv B base K A F o σ β dom cs g S' a' := by
  induction sched generalizing S a with
  | nil => exact ⟨S, a, rfl, I⟩
  | cons i is ih =>
    obtain ⟨r, a1, h1, I1⟩ := I.step hL H hW (hs _) (ho _) i
    obtain ⟨S', a', h2, I2⟩ := ih I1
    exact ⟨S', a', by simp only [GK.exec, h1, Option.bind_some, h2], I2⟩

/-- Some steps of thread `i` lead to `th`. -/
def Leads (C : Cfg V) (dv : V) (B : Bits w V) (base : Nat → Nat) (E : FEnv) (K : Stencil w) (A : Pair) (F : FOps w) (o : Nat) (σ : Loc → V)
    (β : Int × Int × Int → Nat → BitVec w) (dom : Loc → Prop) (cs : Nat → List At) (g : Nat → Option Grid) (S : Team e1 e V) (i : Nat)
    (th : Thread e1 e) : Prop :=
  ∃ is S' a', GK.exec ⟨C.L, B, base, E⟩ K A e1 e is S = some S' ∧ Inv C dv B base K A F o σ β dom cs g S' a' ∧ S'.threads i = th ∧
    ∀ i', i' ≠ i → S'.threads i' = S.threads i'

theorem Leads.step {g : Nat → Option Grid} {S S1 : Team e1 e V} {i : Nat} {th : Thread e1 e}
    (h1 : GK.exec ⟨C.L, B, base, E⟩ K A e1 e [i] S = some S1) (h2 : ∀ i', i' ≠ i → S1.threads i' = S.threads i')
    (h : Leads C dv B base E K A F o σ β dom cs g S1 i th) : Leads C dv B base E K A F o σ β dom cs g S i th := by
  obtain ⟨is, S', a', k1, k2, k3, k4⟩ := h
  exact ⟨[i] ++ is, S', a', by rw [exec_append, h1, Option.bind_some, k1], k2, k3, fun i' hi => (k4 i' hi).trans (h2 i' hi)⟩

theorem Inv.store (hL : C.L.WF) (H : Hardware E K e1 e F Q1 Q d f c) (hW : Work C B base K A e.impl.N Q1 Q s o σ β dom cs)
    {g : Nat → Option Grid} (hs : ∀ h, Has C ⟨h, g⟩ s A.es A.ids) (ho : ∀ h, Has C ⟨h, g⟩ o A.et A.idt) {i : Nat} {calls : List At} {ca : At}
    (ws : Writes w) {S : Team e1 e V} {a : AWorld V} (I : Inv C dv B base K A F o σ β dom cs g S a)
    (hi : S.threads i = ⟨calls, .storing ca ws⟩) : Leads C dv B base E K A F o σ β dom cs g S i ⟨calls, .idle⟩ := by
  induction ws generalizing S a with
  | nil =>
    obtain ⟨r, a1, h1, I1⟩ := I.step hL H hW (hs _) (ho _) i
    have hr : r.1 = ⟨calls, .idle⟩ := by
      rw [hi] at h1; simp only [stepT, Option.some.injEq] at h1; rw [← h1]
    refine ⟨[i], _, a1, by simp only [GK.exec, h1, Option.bind_some], I1, by simp [upd_apply, hr], fun i' hi' => by simp [upd_apply, hi']⟩
  | cons p ws ih =>
    obtain ⟨r, a1, h1, I1⟩ := I.step hL H hW (hs _) (ho _) i
    have hr : r.1 = ⟨calls, .storing ca ws⟩ := by
      rw [hi] at h1
      simp only [stepT] at h1
      split at h1
      · split at h1
        · simp only [Option.some.injEq] at h1; rw [← h1]
        · cases h1
      · cases h1
    exact (ih I1 (by simp [upd_apply, hr])).step (S1 := ⟨World.upd S.threads i r.1, r.2⟩) (by simp only [GK.exec, h1, Option.bind_some])
      fun i' hi' => by simp [upd_apply, hi']

theorem Inv.load (hL : C.L.WF) (H : Hardware E K e1 e F Q1 Q d f c) (hW : Work C B base K A e.impl.N Q1 Q s o σ β dom cs)
    {g : Nat → Option Grid} (hs : ∀ h, Has C ⟨h, g⟩ s A.es A.ids) (ho : ∀ h, Has C ⟨h, g⟩ o A.et A.idt) {i : Nat} {calls : List At} {ca : At}
    (todo : List Nat) {regs : Nat → Option (entryOf e1 e ca).impl.V} {S : Team e1 e V} {a : AWorld V}
    (I : Inv C dv B base K A F o σ β dom cs g S a)
    (hi : S.threads i = ⟨calls, .loading ca todo regs⟩) : Leads C dv B base E K A F o σ β dom cs g S i ⟨calls, .idle⟩ := by
  induction todo generalizing S a regs with
  | nil =>
    obtain ⟨r, a1, h1, I1⟩ := I.step hL H hW (hs _) (ho _) i
    have hr : ∃ ws, r.1 = ⟨calls, .storing ca ws⟩ := by
      rw [hi] at h1
      simp only [stepT] at h1
      obtain ⟨v, -, h1⟩ := Option.bind_eq_some_iff.1 h1
      split at h1
      · obtain ⟨q, -, h1⟩ := Option.bind_eq_some_iff.1 h1
        obtain ⟨ws, -, h1⟩ := Option.map_eq_some_iff.1 h1
        exact ⟨ws, by rw [← h1]⟩
      · cases h1
    obtain ⟨ws, hr⟩ := hr
    exact (I1.store hL H hW hs ho (calls := calls) (ca := ca) ws (by simp [upd_apply, hr])).step (S1 := ⟨World.upd S.threads i r.1, r.2⟩)
      (by simp only [GK.exec, h1, Option.bind_some]) fun i' hi' => by simp [upd_apply, hi']
  | cons j todo ih =>
    obtain ⟨r, a1, h1, I1⟩ := I.step hL H hW (hs _) (ho _) i
    have hr : ∃ regs', r.1 = ⟨calls, .loading ca todo regs'⟩ := by
      rw [hi] at h1
      simp only [stepT] at h1
      obtain ⟨v, -, h1⟩ := Option.map_eq_some_iff.1 h1
      exact ⟨_, by rw [← h1]⟩
    obtain ⟨regs', hr⟩ := hr
    exact (ih (regs := regs') I1 (by simp [upd_apply, hr])).step (S1 := ⟨World.upd S.threads i r.1, r.2⟩)
      (by simp only [GK.exec, h1, Option.bind_some]) fun i' hi' => by simp [upd_apply, hi']

theorem Leads.trans {g : Nat → Option Grid} {S : Team e1 e V} {i : Nat} {th th' : Thread e1 e}
    (h1 : Leads C dv B base E K A F o σ β dom cs g S i th)
    (h2 : ∀ S' a', Inv C dv B base K A F o σ β dom cs g S' a' → S'.threads i = th → Leads C dv B base E K A F o σ β dom cs g S' i th') :
    Leads C dv B base E K A F o σ β dom cs g S i th' := by
  obtain ⟨is, S', a', k1, k2, k3, k4⟩ := h1
  obtain ⟨is', S'', a'', l1, l2, l3, l4⟩ := h2 S' a' k2 k3
  exact ⟨is ++ is', S'', a'', by rw [exec_append, k1, Option.bind_some, l1], l2, l3, fun i' hi => (l4 i' hi).trans (k4 i' hi)⟩

theorem Inv.calls (hL : C.L.WF) (H : Hardware E K e1 e F Q1 Q d f c) (hW : Work C B base K A e.impl.N Q1 Q s o σ β dom cs)
    {g : Nat → Option Grid} (hs : ∀ h, Has C ⟨h, g⟩ s A.es A.ids) (ho : ∀ h, Has C ⟨h, g⟩ o A.et A.idt) {i : Nat} (calls : List At)
    {S : Team e1 e V} {a : AWorld V} (I : Inv C dv B base K A F o σ β dom cs g S a)
    (hi : S.threads i = ⟨calls, .idle⟩) : Leads C dv B base E K A F o σ β dom cs g S i ⟨[], .idle⟩ := by
  induction calls generalizing S a with
  | nil => exact ⟨[], S, a, rfl, I, hi, fun _ _ => rfl⟩
  | cons ca calls ih =>
    obtain ⟨r, a1, h1, I1⟩ := I.step hL H hW (hs _) (ho _) i
    have hr : r.1 = ⟨calls, .loading ca K.code.vars fun _ => none⟩ := by
      rw [hi] at h1; simp only [stepT, Option.some.injEq] at h1; rw [← h1]
    refine ((I1.load hL H hW hs ho (calls := calls) (ca := ca) K.code.vars (regs := fun _ => none) (by simp [upd_apply, hr])).trans fun S' a' I' hi' => ih I' hi').step
      (S1 := ⟨World.upd S.threads i r.1, r.2⟩) (by simp only [GK.exec, h1, Option.bind_some]) fun i' hi' => by simp [upd_apply, hi']

/-- A thread can finish its work. -/
theorem Inv.finish (hL : C.L.WF) (H : Hardware E K e1 e F Q1 Q d f c) (hW : Work C B base K A e.impl.N Q1 Q s o σ β dom cs)
    {g : Nat → Option Grid} (hs : ∀ h, Has C ⟨h, g⟩ s A.es A.ids) (ho : ∀ h, Has C ⟨h, g⟩ o A.et A.idt) (i : Nat)
    {S : Team e1 e V} {a : AWorld V} (I : Inv C dv B base K A F o σ β dom cs g S a) :
    Leads C dv B base E K A F o σ β dom cs g S i ⟨[], .idle⟩ := by
  cases hth : S.threads i with
  | mk calls stat =>
  cases stat with
  | idle => exact I.calls hL H hW hs ho calls hth
  | loading ca todo regs => exact (I.load hL H hW hs ho todo hth).trans fun S' a' I' hi' => I'.calls hL H hW hs ho _ hi'
  | storing ca ws => exact (I.store hL H hW hs ho ws hth).trans fun S' a' I' hi' => I'.calls hL H hW hs ho _ hi'

/-- All threads can finish. -/
theorem Inv.finish_all (hL : C.L.WF) (H : Hardware E K e1 e F Q1 Q d f c) (hW : Work C B base K A e.impl.N Q1 Q s o σ β dom cs)
    {g : Nat → Option Grid} (hs : ∀ h, Has C ⟨h, g⟩ s A.es A.ids) (ho : ∀ h, Has C ⟨h, g⟩ o A.et A.idt) (n : Nat)
    {S : Team e1 e V} {a : AWorld V} (I : Inv C dv B base K A F o σ β dom cs g S a) :
    ∃ is S', GK.exec ⟨C.L, B, base, E⟩ K A e1 e is S = some S' ∧ S'.done n = true := by
  have key : ∀ k, ∃ is S' a', GK.exec ⟨C.L, B, base, E⟩ K A e1 e is S = some S' ∧ Inv C dv B base K A F o σ β dom cs g S' a' ∧
      ∀ i < k, S'.threads i = ⟨[], .idle⟩ := by
    intro k
    induction k with
    | zero => exact ⟨[], S, a, rfl, I, fun i hi => by omega⟩
    | succ k ih =>
      obtain ⟨is, S', a', h1, h2, h3⟩ := ih
      obtain ⟨is', S'', a'', k1, k2, k3, k4⟩ := h2.finish hL H hW hs ho k
      refine ⟨is ++ is', S'', a'', by rw [exec_append, h1, Option.bind_some, k1], k2, fun i hi => ?_⟩
      by_cases hik : i = k
      · subst hik; exact k3
      · rw [k4 i hik]; exact h3 i (by omega)
  obtain ⟨is, S', a', h1, -, h3⟩ := key n
  refine ⟨is, S', h1, ?_⟩
  simp only [Team.done, List.all_eq_true, List.mem_range]
  intro i hi
  rw [h3 i hi]; rfl

/-- What has been computed when a thread has finished. -/
theorem TInv.done {cs : List At} {th : Thread e1 e} {μ : Loc → V} (h : TInv C B base K A F o σ β cs th μ) (hd : th.done = true) :
    ∀ p ∈ cells cs, μ (K.dstLoc o p.1 p.2.1 p.2.2) = B.val (K.code.scalar F (β p)) := by
  obtain ⟨calls, stat⟩ := th
  obtain ⟨done, h1, h2, h3⟩ := h
  cases calls with
  | cons => simp [Thread.done] at hd
  | nil =>
    cases stat with
    | idle => simp only [List.append_nil] at h3; subst h3; exact h1
    | loading => simp [Thread.done] at hd
    | storing => simp [Thread.done] at hd

/-! ### Data races -/

/-- What a thread accesses next: each byte is part of an object which belongs to one of its cells. -/
theorem Inv.next (hL : C.L.WF) (H : Hardware E K e1 e F Q1 Q d f c) (hW : Work C B base K A e.impl.N Q1 Q s o σ β dom cs)
    {g : Nat → Option Grid} {S : Team e1 e V} {a : AWorld V} (I : Inv C dv B base K A F o σ β dom cs g S a)
    (hs : Has C ⟨S.h, g⟩ s A.es A.ids) (ho : Has C ⟨S.h, g⟩ o A.et A.idt) {i : Nat} {acc : Access}
    (hacc : (S.threads i).next ⟨C.L, B, base, E⟩ K A = some acc) {byte : Int} (h1 : acc.addr ≤ byte) (h2 : byte < acc.addr + acc.n) :
    ∃ p ∈ cells (cs i), ∃ q : Ref, ∃ addr n, q.bytes C ⟨S.h, g⟩ = some (acc.id, addr, n) ∧ addr ≤ byte ∧ byte < addr + n ∧
      InGrid C ⟨S.h, g⟩ q.loc ∧ (if acc.write = true then q.loc = K.dstLoc o p.1 p.2.1 p.2.2
        else ∃ j ∈ K.code.vars, q.loc = K.srcLoc s o j p.1 p.2.1 p.2.2) := by
  obtain ⟨done, -, -, h3⟩ := I.thr i
  cases hth : S.threads i with
  | mk calls stat =>
  rw [hth] at hacc h3
  cases stat with
  | idle => simp [Thread.next] at hacc
  | loading ca todo regs =>
    cases todo with
    | nil => simp [Thread.next] at hacc
    | cons j todo =>
      simp only at h3
      obtain ⟨hcs, -, pre, hpre, -⟩ := h3
      have hj : j ∈ K.code.vars := by rw [← hpre]; simp
      have hca : ca ∈ cs i := by rw [← hcs]; simp
      simp only [Thread.next] at hacc
      obtain ⟨m, hm, hacc⟩ := Option.map_eq_some_iff.1 hacc
      subst hacc
      simp only at h1 h2
      obtain ⟨m', hm', hsz, -⟩ := (hW.ptr i ca hca).1 j hj
      rw [hm] at hm'; cases hm'
      have hN := entryOf_N H.n1 (hW.arity i ca hca)
      have hpos := H.size
      -- the element
      have hoff : ∀ (id : Nat) (ext : Ext), addr C.L (base id) ext ca.x ca.y ca.z (K.src j) m - base id = off C.L ext ca.x ca.y ca.z (K.src j) m := by
        intro id ext; unfold addr off; ring
      rw [hoff] at h1 h2
      rw [hN] at h2
      obtain ⟨k, hk⟩ : ∃ k : Nat, byte - off C.L (if K.new j then A.et else A.es) ca.x ca.y ca.z (K.src j) m = k := ⟨_, (Int.toNat_of_nonneg (by omega)).symm⟩
      have hkn : k / m.ty.size < ca.a := by
        rw [Nat.div_lt_iff_lt_mul (by omega)]
        push_cast at h2
        have : ((k : Nat) : Int) < ((ca.a * m.ty.size : Nat) : Int) := by push_cast; omega
        exact_mod_cast this
      have hkd := Nat.div_add_mod k m.ty.size
      have hkm := Nat.mod_lt k (show 0 < m.ty.size by omega)
      refine ⟨(ca.x + ((k / m.ty.size : Nat) : Int), ca.y, ca.z), ?_, ⟨K.slot s o j, ca.x + ((k / m.ty.size : Nat) : Int), ca.y, ca.z,
        (K.src j).X, (K.src j).Y, (K.src j).Z, (K.src j).r, (K.src j).k⟩,
        off C.L (if K.new j then A.et else A.es) (ca.x + ((k / m.ty.size : Nat) : Int)) ca.y ca.z (K.src j) m, m.ty.size, ?_, ?_, ?_, ?_, ?_⟩
      · rw [← hcs, cells_append, cells_cons]
        exact List.mem_append_right _ (List.mem_append_left _ (mem_cells.2 ⟨_, hkn, rfl⟩))
      · have hH : Has C ⟨S.h, g⟩ (K.slot s o j) (if K.new j then A.et else A.es) (if K.new j then A.idt else A.ids) := by
          unfold Stencil.slot
          cases K.new j <;> simpa
        obtain ⟨gg, j1, j2, j3⟩ := hH
        unfold Ref.bytes
        simp only at j1
        simp only [j1, hm, j2, j3]
        rfl
      · rw [off_add]
        have : (((k / m.ty.size : Nat) : Int)) * (m.ty.size : Int) ≤ k := by
          have := Nat.div_mul_le_self k m.ty.size
          exact_mod_cast this
        omega
      · rw [off_add]
        have : (k : Int) < ((k / m.ty.size : Nat) : Int) * (m.ty.size : Int) + m.ty.size := by
          have : k < k / m.ty.size * m.ty.size + m.ty.size := by rw [Nat.mul_comm] at hkd; omega
          exact_mod_cast this
        omega
      · refine (inA_iff I.rel _).1 ((I.inside _).2 ?_)
        exact ((hW.src i (ca.x + ((k / m.ty.size : Nat) : Int), ca.y, ca.z) (by
          rw [← hcs, cells_append, cells_cons]
          exact List.mem_append_right _ (List.mem_append_left _ (mem_cells.2 ⟨_, hkn, rfl⟩))) j hj).1)
      · simp only [Bool.false_eq_true, if_false]
        exact ⟨j, hj, rfl⟩
  | storing ca ws =>
    cases ws with
    | nil => simp [Thread.next] at hacc
    | cons x ws =>
      obtain ⟨qx, v⟩ := x
      simp only at h3
      obtain ⟨hcs, m', q, ws0, hm', hsz, hq, hws, -⟩ := h3
      simp only [Thread.next] at hacc
      obtain ⟨m, hm, hacc⟩ := Option.map_eq_some_iff.1 hacc
      have hmm : m' = m := Option.some.inj (hm'.symm.trans hm)
      subst hmm
      subst hacc
      simp only at h1 h2
      obtain ⟨k, hk, hqx⟩ := hws _ List.mem_cons_self
      simp only at hqx
      have e2 : qx * (w / 8 : Nat) - base A.idt = off C.L A.et (ca.x + (k : Nat)) ca.y ca.z K.dst m' := by
        rw [hqx, off_add, Int.add_mul, hq, hsz]; ring
      rw [e2] at h1 h2
      have hmem : (ca.x + (k : Nat), ca.y, ca.z) ∈ cells (cs i) := by
        rw [← hcs, cells_append, cells_cons]
        exact List.mem_append_right _ (List.mem_append_left _ (mem_cells.2 ⟨_, hk, rfl⟩))
      refine ⟨(ca.x + (k : Nat), ca.y, ca.z), hmem, ⟨o, ca.x + (k : Nat), ca.y, ca.z, K.dst.X, K.dst.Y, K.dst.Z, K.dst.r, K.dst.k⟩,
        off C.L A.et (ca.x + (k : Nat)) ca.y ca.z K.dst m', m'.ty.size, ?_, h1, h2, ?_, ?_⟩
      · obtain ⟨gg, j1, j2, j3⟩ := ho
        unfold Ref.bytes
        simp only at j1
        simp only [j1, hm, j2, j3]
        rfl
      · exact (inA_iff I.rel _).1 ((I.inside _).2 (hW.dst i _ hmem))
      · simp only [if_true]; rfl

theorem Inv.no_race (hL : C.L.WF) (H : Hardware E K e1 e F Q1 Q d f c) (hW : Work C B base K A e.impl.N Q1 Q s o σ β dom cs)
    {g : Nat → Option Grid} {S : Team e1 e V} {a : AWorld V} (I : Inv C dv B base K A F o σ β dom cs g S a)
    (hs : Has C ⟨S.h, g⟩ s A.es A.ids) (ho : Has C ⟨S.h, g⟩ o A.et A.idt) {i i' : Nat} (hi : i ≠ i') {acc acc' : Access}
    (h1 : (S.threads i).next ⟨C.L, B, base, E⟩ K A = some acc) (h2 : (S.threads i').next ⟨C.L, B, base, E⟩ K A = some acc') :
    ¬ acc.Conflict acc' := by
  rintro ⟨hid, hwr, byte, b1, b2, b3, b4⟩
  obtain ⟨p, p1, q, ad, n, p2, p3, p4, p5, p6⟩ := I.next hL H hW hs ho h1 b1 b2
  obtain ⟨p', p1', q', ad', n', p2', p3', p4', p5', p6'⟩ := I.next hL H hW hs ho h2 b3 b4
  have hne : q.loc ≠ q'.loc := by
    intro he
    have hap := hW.apart i i' hi p p1 p' p1'
    have hap' := hW.apart i' i (Ne.symm hi) p' p1' p p1
    by_cases w1 : acc.write = true
    · rw [if_pos w1] at p6
      by_cases w2 : acc'.write = true
      · rw [if_pos w2] at p6'
        rw [p6, p6'] at he
        obtain ⟨e1, e2, e3⟩ := dstLoc_inj he
        exact hap.1 (Prod.ext e1 (Prod.ext e2 e3))
      · rw [if_neg w2] at p6'
        obtain ⟨j, hj, p6'⟩ := p6'
        rw [p6, p6'] at he
        exact hap'.2 j hj he
    · rw [if_neg w1] at p6
      obtain ⟨j, hj, p6⟩ := p6
      rw [if_pos (hwr.resolve_left w1)] at p6'
      rw [p6, p6'] at he
      exact hap.2 j hj he.symm
  obtain ⟨id1, ad1, n1, id2, ad2, n2, k1, k2, k3⟩ := C61_no_race hL I.valid p5 p5' hne
  rw [p2] at k1; rw [p2'] at k2
  simp only [Option.some.injEq, Prod.mk.injEq] at k1 k2
  obtain ⟨rfl, rfl, rfl⟩ := k1
  obtain ⟨rfl, rfl, rfl⟩ := k2
  exact k3 byte ⟨hid, p3, p4, p3', p4'⟩

/-! ### Boxes -/

/-- The loop over the z-coordinates of the box is split among `n` threads. -/
structure Splits (b : Box) (n : Nat) (zs : Nat → List Int) : Prop where
  nodup : ∀ i, (zs i).Nodup
  apart : ∀ i i', i ≠ i' → ∀ z ∈ zs i, z ∉ zs i'
  all : ∀ z, (∃ i < n, z ∈ zs i) ↔ b.z0 ≤ z ∧ z < b.z1
  idle : ∀ i, n ≤ i → zs i = []

theorem Splits.range {b : Box} {n : Nat} {zs : Nat → List Int} (h : Splits b n zs) {i : Nat} {z : Int} (hz : z ∈ zs i) :
    i < n ∧ b.z0 ≤ z ∧ z < b.z1 := by
  have hi : i < n := by
    by_contra hi
    rw [h.idle i (by omega)] at hz
    cases hz
  exact ⟨hi, (h.all z).1 ⟨i, hi, hz⟩⟩

/-- Threads do not read what other threads write, and no thread reads what it has written. -/
def Stencil.ParSafe (K : Stencil w) (s o : Nat) : Prop :=
  ∀ j ∈ K.code.vars, K.slot s o j = o → (K.src j).r = K.dst.r → (K.src j).k = K.dst.k →
    (K.src j).Z = K.dst.Z ∧ ¬ Before (K.src j).X (K.src j).Y (K.src j).Z K.dst.X K.dst.Y K.dst.Z

/-- The cells of some slices of the box. -/
def Box.part (b : Box) (zs : List Int) : List (Int × Int × Int) :=
  (b.slices zs).flatMap fun r => (Peel.iota b.x0 (b.x1 - b.x0).toNat).map fun x => (x, r.1, r.2)

theorem Box.mem_slices {b : Box} {zs : List Int} {y z : Int} : (y, z) ∈ b.slices zs ↔ b.y0 ≤ y ∧ y < b.y1 ∧ z ∈ zs := by
  unfold Box.slices
  simp only [List.mem_flatMap, List.mem_map, mem_iota, Prod.mk.injEq]
  constructor
  · rintro ⟨z', h1, y', h2, rfl, rfl⟩; exact ⟨h2.1, by omega, h1⟩
  · rintro ⟨h1, h2, h3⟩; exact ⟨z, h3, y, by omega, rfl, rfl⟩

theorem Box.mem_part {b : Box} {zs : List Int} {p : Int × Int × Int} :
    p ∈ b.part zs ↔ b.x0 ≤ p.1 ∧ p.1 < b.x1 ∧ b.y0 ≤ p.2.1 ∧ p.2.1 < b.y1 ∧ p.2.2 ∈ zs := by
  obtain ⟨x, y, z⟩ := p
  unfold Box.part
  simp only [List.mem_flatMap, List.mem_map, mem_iota, Prod.mk.injEq]
  constructor
  · rintro ⟨⟨y', z'⟩, h1, x', h2, rfl, rfl, rfl⟩
    have := Box.mem_slices.1 h1
    exact ⟨h2.1, by omega, this.1, this.2.1, this.2.2⟩
  · rintro ⟨h1, h2, h3, h4, h5⟩; exact ⟨(y, z), Box.mem_slices.2 ⟨h3, h4, h5⟩, x, by omega, rfl, rfl, rfl⟩

theorem Box.part_sorted (b : Box) {zs : List Int} (hz : zs.Nodup) :
    (b.part zs).Pairwise fun p q => p.2.2 ≠ q.2.2 ∨ p.2.2 = q.2.2 ∧ (p.2.1 < q.2.1 ∨ p.2.1 = q.2.1 ∧ p.1 < q.1) := by
  have hr : (b.slices zs).Pairwise fun r r' => r.2 ≠ r'.2 ∨ r.2 = r'.2 ∧ r.1 < r'.1 := by
    unfold Box.slices
    rw [List.pairwise_flatMap]
    refine ⟨fun z _ => ?_, ?_⟩
    · rw [List.pairwise_map]
      exact (iota_sorted _ _).imp fun h => .inr ⟨rfl, h⟩
    · refine hz.imp fun h r hr r' hr' => ?_
      simp only [List.mem_map] at hr hr'
      obtain ⟨_, _, rfl⟩ := hr
      obtain ⟨_, _, rfl⟩ := hr'
      exact .inl h
  unfold Box.part
  rw [List.pairwise_flatMap]
  refine ⟨fun r _ => ?_, ?_⟩
  · rw [List.pairwise_map]
    exact (iota_sorted _ _).imp fun h => .inr ⟨rfl, .inr ⟨rfl, h⟩⟩
  · refine hr.imp fun h p hp p' hp' => ?_
    simp only [List.mem_map] at hp hp'
    obtain ⟨_, _, rfl⟩ := hp
    obtain ⟨_, _, rfl⟩ := hp'
    rcases h with h | ⟨h, h'⟩
    · exact .inl h
    · exact .inr ⟨h, .inl h'⟩

theorem Stencil.ParSafe.noHazard {K : Stencil w} {s o : Nat} (h : K.ParSafe s o) (b : Box) {zs : List Int} (hz : zs.Nodup) :
    K.NoHazard s o (b.part zs) := by
  refine (b.part_sorted hz).imp ?_
  rintro ⟨x, y, z⟩ ⟨x', y', z'⟩ hb j hj he
  simp only [Stencil.dstLoc, Stencil.srcLoc, at', Loc.mk.injEq] at he
  obtain ⟨h1, h2⟩ := h j hj he.1.symm he.2.2.2.2.1.symm he.2.2.2.2.2.symm
  refine h2 ?_
  simp only [Before] at hb ⊢
  omega

theorem boxCalls_part (b : Box) {pc : List (Nat × Int)} {xe : Int} (hp : Peel.visits pc = Peel.iota b.x0 (xe - b.x0).toNat) (zs : List Int) :
    cells (boxCalls pc (b.slices zs)) = Box.part { b with x1 := xe } zs := by
  unfold cells boxCalls Box.part
  rw [List.flatMap_assoc]
  show (b.slices zs).flatMap _ = (b.slices zs).flatMap _
  congr 1
  funext r
  rw [← hp, Peel.visits, List.flatMap_map, List.map_flatMap]
  rfl

/-- The invariant holds at the beginning of the parallel region. -/
theorem start {b : Box} {n : Nat} {zs : Nat → List Int} (hz : Splits b n zs) (hsafe : K.ParSafe s o) {pc : List (Nat × Int)} {xe : Int}
    (hv : Peel.visits pc = Peel.iota b.x0 (xe - b.x0).toNat) (hc : ∀ c ∈ pc, (c.1 = 1 ∨ c.1 = e.impl.N) ∧ (c.1 = e.impl.N → (e.impl.N : Int) ∣ c.2))
    (hA : K.Accesses C base A b e.impl.N Q1 Q) {W : World V} {a : AWorld V} (hV : Valid C dv W) (hR : R C W a)
    (hin : K.Inside B s o { b with x1 := xe } (InA C a) (valA dv a)) :
    Work C B base K A e.impl.N Q1 Q s o (valA dv a) (fun p j => (B.bits (valA dv a (K.srcLoc s o j p.1 p.2.1 p.2.2))).getD 0) (InA C a)
      (fun i => boxCalls pc (b.slices (zs i))) ∧
    Inv C dv B base K A F o (valA dv a) (fun p j => (B.bits (valA dv a (K.srcLoc s o j p.1 p.2.1 p.2.2))).getD 0) (InA C a)
      (fun i => boxCalls pc (b.slices (zs i))) W.g (e1 := e1) (e := e) ⟨fun i => ⟨boxCalls pc (b.slices (zs i)), .idle⟩, W.h⟩ a := by
  have hmem : ∀ i p, p ∈ cells (boxCalls pc (b.slices (zs i))) → Box.Has { b with x1 := xe } p.1 p.2.1 p.2.2 ∧ p.2.2 ∈ zs i := by
    intro i p hp
    rw [boxCalls_part b hv, Box.mem_part] at hp
    have := hz.range hp.2.2.2.2
    simp only [Box.Has]
    refine ⟨⟨hp.1, hp.2.1, hp.2.2.1, hp.2.2.2.1, this.2.1, this.2.2⟩, hp.2.2.2.2⟩
  refine ⟨⟨?_, ?_, ?_, ?_, ?_, ?_, ?_⟩, hR, hV, fun _ => Iff.rfl, fun i => ?_, fun l _ _ => rfl⟩
  · intro i c hc'
    simp only [boxCalls, List.mem_flatMap, List.mem_map] at hc'
    obtain ⟨r, -, q, hq, rfl⟩ := hc'
    exact (hc q hq).1
  · intro i c hc'
    simp only [boxCalls, List.mem_flatMap, List.mem_map] at hc'
    obtain ⟨r, hr, q, hq, rfl⟩ := hc'
    have hr := Box.mem_slices.1 hr
    have hr' := hz.range hr.2.2
    have hr : (r.1, r.2) ∈ b.rows := Box.mem_rows.2 ⟨hr.1, hr.2.1, hr'.2.1, hr'.2.2⟩
    obtain ⟨al, j1, j2, j3⟩ := hA.store
    obtain ⟨al1, i1, i2⟩ := hA.store1
    by_cases hn : q.1 = e.impl.N
    · simp only [hn, if_true]
      exact ⟨fun j hj => (hA.src j hj).pointer hr ((hc q hq).2 hn) (Nat.dvd_refl _) hA.load,
        al, j1, j3.pointer hr ((hc q hq).2 hn) (Nat.dvd_refl _) j2⟩
    · simp only [hn, if_false]
      exact ⟨fun j hj => (hA.src j hj).pointer1 hA.load1, al1, i1, j3.pointer1 i2⟩
  · intro i p hp
    exact (hin _ _ _ (hmem i p hp).1).1
  · intro i p hp j hj
    obtain ⟨k1, k2⟩ := (hin _ _ _ (hmem i p hp).1).2 j hj
    refine ⟨k1, ?_⟩
    obtain ⟨v, hv⟩ := Option.isSome_iff_exists.1 k2
    simp only [hv, Option.getD_some]
  · intro i
    rw [boxCalls_part b hv]
    exact hsafe.noHazard _ (hz.nodup i)
  · intro i
    rw [boxCalls_part b hv]
    refine (Box.part_sorted _ (hz.nodup i)).imp ?_
    rintro p q h rfl
    omega
  · intro i i' hi p hp p' hp'
    have h1 := (hmem i p hp).2
    have h2 := (hmem i' p' hp').2
    have hne : p.2.2 ≠ p'.2.2 := fun he => hz.apart i i' hi _ h1 (he ▸ h2)
    refine ⟨fun he => hne (by rw [he]), fun j hj he => ?_⟩
    simp only [Stencil.dstLoc, Stencil.srcLoc, at', Loc.mk.injEq] at he
    have := (hsafe j hj he.1.symm he.2.2.2.2.1.symm he.2.2.2.2.2.symm).1
    omega
  · exact ⟨[], fun p hp => (by cases hp), fun _ _ => rfl, rfl⟩

end LFA.GK
