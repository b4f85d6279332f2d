import Verif.Props.Adaptive
import Verif.Props.DevGrid
import Verif.Props.CudaArray

/-
  Clients of grids and arrays in the memory of a CUDA device (C41, C60) which choose their next call by what the previous ones
  returned. As calls have several outcomes, so have clients.
-/
set_option linter.unusedSectionVars false
namespace LFA

namespace Prog
open ND
variable {Op Out ρ S A : Type}

/-- The outcomes of a client whose calls have several outcomes: client code as in `Prog`, which calls the member functions of
    soa_grid.hpp:90-505 (with cuda_allocator.hpp:38-58) or cuda_array.hpp:53-217. -/
def execND (step : S → Op → ND (S × Out)) : Prog Op Out ρ → S → ND (S × ρ)
  | .ret r, s => pure (s, r)
  | .call op k, s => step s op >>= fun q => execND step (k q.2) q.1

/-- A simulation of single calls is one of clients. -/
theorem execND_refines {step : S → Op → ND (S × Out)} {Pre : A → Op → Prop} {Post : A → Op → A → Out → Prop} {R : S → A → Prop}
    (hstep : ∀ {w a} op, R w a → Pre a op → Always (step w op) fun q => ∃ a', Post a op a' q.2 ∧ R q.1 a') :
    ∀ (p : Prog Op Out ρ) {w : S} {a : A}, R w a → p.Safe Pre Post a →
      Always (p.execND step w) fun q => ∃ a', p.Allows Post a q.2 a' ∧ R q.1 a'
  | .ret _, _, a, hR, _ => Always.pure ⟨a, ⟨rfl, rfl⟩, hR⟩
  | .call op k, _, _, hR, h => (hstep op hR h.1).bind fun q ⟨a1, h1, h2⟩ =>
      (execND_refines hstep (k q.2) h2 (h.2 a1 q.2 h1)).mono fun _ ⟨a', k1, k2⟩ => ⟨a', ⟨a1, q.2, h1, k1⟩, k2⟩

end Prog

namespace Dev
open ND
variable {V : Type} [DecidableEq V] {C : Cfg V} {dv : V} {ρ : Type}

/-- No memory is left without grids. -/
theorem DR.empty {D : World V} {a : AWorld V} (h : DR C D a) (hnone : ∀ s, D.w.g s = none) :
    (∀ id, D.w.h.blk id = none) ∧ (∀ p, D.cs.heap p = none) ∧ ∀ p, D.rs.heap p = none := by
  have hl : ∀ s, live a s = false := by
    intro s
    have := h.host.slots s
    rw [hnone s] at this
    cases ha : a s with
    | absent => simp [live, ha]
    | blank => rw [ha] at this; obtain ⟨g, h, -⟩ := this; cases h
    | grid ag => rw [ha] at this; obtain ⟨g, h, -⟩ := this; cases h
  refine ⟨fun id => ?_, h.cells.empty hl, h.raw.empty hl⟩
  cases hb : D.w.h.blk id with
  | none => rfl
  | some b =>
    obtain ⟨s, g, h, -⟩ := h.host.live id b hb
    rw [hnone s] at h; cases h

/-- C60 for clients whose calls depend on what the previous ones returned, e.g. on the dimensions or the cells that have been read:
    there is an outcome, no outcome is undefined behaviour, each is one the plain 3D arrays allow, and if it leaves no grid it leaves
    no device memory. Missing: as in `C60_history_partial`. -/
theorem C60_client_partial (hL : C.L.WF) (htr : ∀ m ∈ C.L, m.ty.triv = true) (p : Prog (Op V) (Out V) ρ)
    (hp : p.Safe (fun a op => Spec.Pre C a op ∧ Limits op) (Post C dv) Spec.start) :
    (∃ r, p.execND (step C) World.init r) ∧
    ∀ r, p.execND (step C) World.init r → ∃ D x a, r = .ok (D, x) ∧ p.Allows (Post C dv) Spec.start x a ∧
      ((∀ s, D.w.g s = none) → (∀ id, D.w.h.blk id = none) ∧ (∀ q, D.cs.heap q = none) ∧ ∀ q, D.rs.heap q = none) := by
  have := Prog.execND_refines (R := DR C) (fun op hR h => step_all hL htr dv hR op h.1 h.2) p (DR.init (C := C)) hp
  refine ⟨this.1, fun r hr => ?_⟩
  obtain ⟨q, h1, a, h2, h3⟩ := this.2 r hr
  exact ⟨q.1, q.2, a, h1, h2, fun h => h3.empty h⟩

/-- The client which reads the last cell of a grid, if there is one, on the device. -/
theorem lastCell_safe {a : AWorld V} {s : Nat} (hs : a s = .absent) (d : Ext) (hd : LaunchDims d) (t : Cell V) :
    (Props.lastCell s d t).Safe (fun a op => Spec.Pre C a op ∧ Limits op) (Post C dv) a := by
  refine ⟨⟨hs, hd⟩, fun a1 out h => ?_⟩
  have key : ∀ {a : AWorld V}, a s ≠ .absent → Prog.Safe (fun a op => Spec.Pre C a op ∧ Limits op) (Post C dv) (.call (.dims s) fun
      | .triple e => if 0 < e.x ∧ 0 < e.y ∧ 0 < e.z then
          .call (.get s (e.x - 1) (e.y - 1) (e.z - 1) [t]) fun
            | .cells [c] => .ret (some c)
            | _ => .ret none
        else .ret none
      | _ => .ret none) a := by
    intro a ha
    refine ⟨⟨ha, trivial⟩, fun a2 out h => ?_⟩
    change Spec.Post C dv a (.dims s) a2 out at h
    cases h with
    | dims _ g hg =>
      simp only
      split
      · rename_i hp
        refine ⟨⟨⟨g, hg, ?_, ?_, ?_⟩, ?_⟩, fun a3 out _ => ?_⟩
        · simp only [List.length_singleton]; omega
        · omega
        · omega
        · simp [Limits]
        · cases out with
          | cells l =>
            cases l with
            | nil => trivial
            | cons c l => cases l <;> trivial
          | _ => trivial
      · trivial
    | dimsBlank =>
      simp only
      rw [if_neg (by omega)]
      trivial
  change Spec.Post C dv a (.new s d) a1 out at h
  cases h with
  | newBlank => exact key (by simp [LFA.World.upd])
  | new => exact key (by simp [LFA.World.upd])
  | newFail => trivial

/-- Whether the constructor throws and whether there are cells is found out by the client. -/
example (d : Ext) (hd : LaunchDims d) := C60_client_partial demoL_WF demoL_triv (dv := 0) (Props.lastCell 0 d demoCell)
  (lastCell_safe (C := demoC) rfl d hd demoCell)

end Dev

namespace CA
open ND
variable {V : Type} {ρ : Type}

/-- What a call on an array may do: the arrays afterwards, and elements which agree with those `save` shall yield. -/
def Post (a : AWorld V) (op : Op V) (a' : AWorld V) (out : List (Option V)) : Prop :=
  a' = (Spec.step a op).1 ∧ Agrees out (Spec.step a op).2

theorem bounded_step {a : AWorld V} (h : Dev.Bounded a) (op : Op V) : Dev.Bounded (Spec.step a op).1 := by
  cases op <;> simp only [Spec.step]
  case new => exact h.upd _ _
  case fill => exact h.upd _ _
  case host => exact h.upd _ _
  case vec => exact h.upd _ _
  case del => exact h.upd _ _
  all_goals split <;> first | exact h.upd _ _ | exact h

/-- Each call has an outcome: there is unused memory, and the threads of a kernel can run one after the other. -/
theorem call_always {c : World V} {a : AWorld V} (h : Rel c a) (hb : Dev.Bounded a) {op : Op V} (hpre : Spec.Pre a op) :
    Always (Dev.call c op) fun q => ∃ a', Post a op a' q.2 ∧ Rel q.1 a' ∧ Dev.Bounded a' := by
  constructor
  · obtain ⟨p, hp⟩ := Dev.exists_unused h hb
    cases op with
    | fill s n v =>
      exact ⟨_, ⟨some p, _⟩, ⟨⟨p, rfl, hp⟩, Interleave.sequential [] (fun _ h => nomatch h) (initThreads n)⟩, rfl⟩
    | _ => exact ⟨_, ⟨some p, []⟩, ⟨⟨p, rfl, hp⟩, trivial⟩, rfl⟩
  · rintro r ⟨ans, h1, rfl⟩
    obtain ⟨w', out, k1, k2, k3⟩ := step_ok h hpre h1
    exact ⟨_, k1, _, ⟨rfl, k3⟩, k2, bounded_step hb op⟩

/-- C41 for clients whose calls depend on what the previous ones returned, e.g. on the elements `save` yielded: there is an outcome, no
    outcome is undefined behaviour, each is one the vectors with a capacity allow, sizes and capacities are the expected ones, and no
    memory but that of the arrays is in use. Missing: as in `C41_partial`. -/
theorem C41_client_partial (p : Prog (Op V) (List (Option V)) ρ) (hp : p.Safe Spec.Pre Post (fun _ => none)) :
    (∃ r, p.execND Dev.call World.init r) ∧
    ∀ r, p.execND Dev.call World.init r → ∃ w x a, r = .ok (w, x) ∧ p.Allows Post (fun _ => none) x a ∧
      (∀ s, (w.arr s).map (fun x => (x.cap, x.size)) = (a s).map fun q => (q.1, q.2.length)) ∧
      (∀ s s' x x', w.arr s = some x → w.arr s' = some x' → x.ptr = x'.ptr → s = s') ∧
      (∀ q, w.heap q ≠ none → ∃ s x, w.arr s = some x ∧ x.ptr = q) := by
  have := Prog.execND_refines (R := fun w a => Rel w a ∧ Dev.Bounded a) (Post := Post)
    (fun op hR h => call_always (op := op) hR.1 hR.2 h)
    p (w := World.init) ⟨Rel.init, ⟨0, fun _ _ => rfl⟩⟩ hp
  refine ⟨this.1, fun r hr => ?_⟩
  obtain ⟨q, h1, a, h2, h3, -⟩ := this.2 r hr
  refine ⟨q.1, q.2, a, h1, h2, fun s => ?_, h3.inj, fun p hp => ?_⟩
  · cases hx : q.1.arr s with
    | none => rw [(h3.hnone s).1 hx]; rfl
    | some x =>
      cases hy : a s with
      | none => rw [(h3.hnone s).2 hy] at hx; cases hx
      | some y =>
        obtain ⟨e1, e2, _⟩ := h3.hsome s x y.1 y.2 hx hy
        simp only [Option.map_some, e1, e2]
  · cases hm : q.1.heap p with
    | none => exact absurd hm hp
    | some m => exact h3.own p m hm

/-- Copies `l` to the device, and reads it back; if the first element is `v` the array is doubled in size, filled up with `w`, and read
    again, else it is returned as it is. -/
def grow [DecidableEq V] (l : List V) (v w : V) : Prog (Op V) (List (Option V)) (List (Option V)) :=
  .call (.vec 0 l) fun _ => .call (.save 0) fun out =>
    if out.head? = some (some v) then .call (.resizeFill 0 (2 * out.length) w) fun _ => .call (.save 0) fun out' => .ret out'
    else .ret out

theorem grow_safe [DecidableEq V] (l : List V) (v w : V) (h : l ≠ []) : (grow l v w).Safe Spec.Pre Post (fun _ => none) := by
  refine ⟨⟨rfl, h⟩, ?_⟩
  rintro a1 out1 ⟨rfl, -⟩
  refine ⟨⟨_, rfl⟩, ?_⟩
  rintro a2 out2 ⟨rfl, -⟩
  simp only
  split
  · refine ⟨⟨_, rfl⟩, ?_⟩
    rintro a3 out3 ⟨rfl, -⟩
    exact ⟨⟨_, rfl⟩, fun _ _ _ => trivial⟩
  · trivial

theorem agrees_map {out : List (Option V)} {l : List V} (h : Agrees out (l.map some)) : out = l.map some := by
  apply List.ext_getElem? fun i => ?_
  by_cases hi : i < l.length
  · rw [h.2 i l[i] (by simp [hi])]
    simp [hi]
  · rw [List.getElem?_eq_none (by rw [h.1]; simpa using hi), List.getElem?_eq_none (by simpa using hi)]

/-- What the client returns, for all vectors and in all outcomes. -/
theorem grow_returns [DecidableEq V] (l : List V) (v w : V) (h : l ≠ []) {r : Except UB (World V × List (Option V))}
    (hr : (grow l v w).execND Dev.call World.init r) :
    ∃ c, r = .ok (c, (if l.head? = some v then l ++ List.replicate l.length w else l).map some) := by
  obtain ⟨c, x, a, h1, h2, -⟩ := (C41_client_partial _ (grow_safe l v w h)).2 r hr
  obtain ⟨a1, o1, ⟨rfl, -⟩, a2, o2, ⟨rfl, h3⟩, h4⟩ := h2
  have e2 : o2 = l.map some := agrees_map (by simpa [Spec.step, upd] using h3)
  subst e2
  refine ⟨c, ?_⟩
  rw [h1]
  congr 2
  simp only at h4
  by_cases hh : l.head? = some v
  · rw [if_pos (by simp [hh])] at h4
    obtain ⟨a3, o3, ⟨rfl, -⟩, a4, o4, ⟨rfl, h5⟩, rfl, rfl⟩ := h4
    rw [if_pos hh]
    refine agrees_map (l := l ++ List.replicate l.length w) ?_
    have e : 2 * l.length - l.length = l.length := by omega
    simpa [Spec.step, upd, e, List.take_of_length_le (show (l.map some).length ≤ 2 * l.length by simp; omega)] using h5
  · rw [if_neg (by simpa using hh)] at h4
    rw [if_neg hh]
    exact h4.1

example := C41_client_partial _ (grow_safe [3, 4, 5] 3 7 (by simp))

/-- There is an outcome, and it is the expected one. -/
example : ∃ c, (grow [3, 4, 5] 3 7).execND Dev.call World.init (.ok (c, [some 3, some 4, some 5, some 7, some 7, some 7])) := by
  obtain ⟨r, hr⟩ := (C41_client_partial _ (grow_safe [3, 4, 5] 3 7 (by simp))).1
  obtain ⟨c, rfl⟩ := grow_returns [3, 4, 5] 3 7 (by simp) hr
  exact ⟨c, hr⟩

end CA
end LFA
