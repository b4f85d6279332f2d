import Verif.DevGridProof
import Verif.Demo

/-
  C60: grids in the memory of a CUDA device behave like plain 3D arrays, whatever order the threads of the kernels run in, whatever
  addresses `cudaMalloc` returns and whatever fresh device memory contains.
-/
set_option linter.unusedSectionVars false
namespace LFA
namespace Dev
open ND
variable {V : Type} [DecidableEq V] {C : Cfg V} {dv : V}

/-- As `Spec.Run`, for device grids. -/
inductive Run (C : Cfg V) (dv : V) : AWorld V → List (Op V) → AWorld V → List (Out V) → Prop where
  | nil (a : AWorld V) : Run C dv a [] a []
  | cons {a a' a'' : AWorld V} {op : Op V} {ops : List (Op V)} {out : Out V} {outs : List (Out V)}
      (hpost : Post C dv a op a' out) (h : Run C dv a' ops a'' outs) : Run C dv a (op :: ops) a'' (out :: outs)

/-- As `Spec.Legal`, and all operations stay within the limits of the device. -/
def Legal (C : Cfg V) (dv : V) : AWorld V → List (Op V) → Prop
  | _, [] => True
  | a, op :: ops => Spec.Pre C a op ∧ Limits op ∧ ∀ a' out, Post C dv a op a' out → Legal C dv a' ops

theorem run_always (hL : C.L.WF) (htr : ∀ m ∈ C.L, m.ty.triv = true) {D : World V} {a : AWorld V} (hR : DR C D a) (ops next : List (Op V))
    (hleg : Legal C dv a (ops ++ next)) :
    Always (run C D ops) fun q => ∃ a', Run C dv a ops a' q.2 ∧ DR C q.1 a' ∧ Legal C dv a' next := by
  induction ops generalizing D a with
  | nil => exact Always.pure ⟨a, .nil a, hR, hleg⟩
  | cons op ops ih =>
    obtain ⟨hpre, hlim, hnext⟩ := hleg
    unfold run
    refine (step_all hL htr dv hR op hpre hlim).bind ?_
    rintro q ⟨a1, h2, h3⟩
    refine (ih h3 (hnext a1 _ h2)).bind ?_
    rintro q' ⟨a2, k1, k2, k3⟩
    exact Always.pure ⟨a2, .cons h2 k1, k2, k3⟩

theorem run_append (hL : C.L.WF) (htr : ∀ m ∈ C.L, m.ty.triv = true) {D : World V} {a : AWorld V} (hR : DR C D a) (ops next : List (Op V))
    (hleg : Legal C dv a (ops ++ next)) {P : List (Out V) → Prop}
    (h : ∀ D' a' outs, Run C dv a ops a' outs → DR C D' a' → Legal C dv a' next → Always (run C D' next) fun r => P (outs ++ r.2)) :
    Always (run C D (ops ++ next)) fun r => P r.2 := by
  induction ops generalizing D a P with
  | nil => exact h D a [] (.nil a) hR hleg
  | cons op ops ih =>
    obtain ⟨hpre, hlim, hnext⟩ := hleg
    show Always (run C D (op :: (ops ++ next))) _
    unfold run
    refine (step_all hL htr dv hR op hpre hlim).bind ?_
    rintro q ⟨a1, h2, h3⟩
    refine (ih (P := fun o => P (q.2 :: o)) h3 (hnext a1 _ h2) fun D' a' outs k1 k2 k3 => h D' a' (q.2 :: outs) (.cons h2 k1) k2 k3).bind ?_
    rintro q' k
    exact Always.pure k

/-- C60: no outcome of a program which respects the contracts is undefined behaviour, and everything it observes is what the
    specification in terms of plain 3D arrays allows. Missing: members which are not trivially copyable; grids and rows beyond the
    limits of a kernel launch; copies and assignments (they do not compile); `set` of one struct to more than one cell, which reaches
    the first cell only (`C60_false_broadcast`); and `get` replaces all of the target struct, not only the registered members
    (`C60_false_get`). -/
theorem C60_history_partial (hL : C.L.WF) (htr : ∀ m ∈ C.L, m.ty.triv = true) (ops : List (Op V))
    (hleg : Legal C dv Spec.start ops) :
    (∃ r, run C World.init ops r) ∧
    ∀ r, run C World.init ops r → ∃ D outs a, r = .ok (D, outs) ∧ Run C dv Spec.start ops a outs := by
  have := run_always hL htr (DR.init (C := C)) ops [] (dv := dv) (by rw [List.append_nil]; exact hleg)
  refine ⟨this.1, fun r hr => ?_⟩
  obtain ⟨q, h1, a, h2, -⟩ := this.2 r hr
  exact ⟨q.1, q.2, a, h1, h2⟩

theorem Staging.empty {α : Type} {c : CA.World α} {live : Nat → Bool} (h : Staging live c) (hl : ∀ s, live s = false) (p : Nat) :
    c.heap p = none := by
  obtain ⟨ac, h1, h2, h3, h4⟩ := h
  cases hp : c.heap p with
  | none => rfl
  | some m =>
    obtain ⟨s, x, hs, -⟩ := h1.own p m hp
    have : ac s = none := by
      cases s with
      | zero => exact h3
      | succ s => have := (h4 s).trans (hl s); simpa using this
    rw [(h1.hnone s).2 this] at hs; cases hs

/-- C60: once all grids are destroyed no device memory is left, neither that of the grids nor that of their staging buffers. -/
theorem C60_no_leak (hL : C.L.WF) (htr : ∀ m ∈ C.L, m.ty.triv = true) (ops : List (Op V))
    (hleg : Legal C dv Spec.start ops) (D : World V) (outs : List (Out V)) (hrun : run C World.init ops (.ok (D, outs)))
    (hnone : ∀ s, D.w.g s = none) :
    (∀ id, D.w.h.blk id = none) ∧ (∀ p, D.cs.heap p = none) ∧ ∀ p, D.rs.heap p = none := by
  have := run_always hL htr (DR.init (C := C)) ops [] (dv := dv) (by rw [List.append_nil]; exact hleg)
  obtain ⟨q, h1, a, h2, h3, -⟩ := this.2 _ hrun
  cases h1
  have hl : ∀ s, live a s = false := by
    intro s
    have := h3.host.slots s
    rw [hnone s] at this
    cases ha : a s with
    | absent => simp [live, ha]
    | blank => rw [ha] at this; obtain ⟨g, h, -⟩ := this; cases h
    | grid ag => rw [ha] at this; obtain ⟨g, h, -⟩ := this; cases h
  refine ⟨fun id => ?_, h3.cells.empty hl, h3.raw.empty hl⟩
  cases hb : D.w.h.blk id with
  | none => rfl
  | some b =>
    obtain ⟨s, g, h, -⟩ := h3.host.live id b hb
    rw [hnone s] at h; cases h

/-- C60: a `get` after a `set` of the same row yields all of the structs which have been set, including members which are not
    registered; what these members of the target were before is lost. -/
theorem C60_get_after_set (hL : C.L.WF) (htr : ∀ m ∈ C.L, m.ty.triv = true) (ops : List (Op V)) (s x y z : Nat)
    (cells target : List (Cell V)) (hlen : target.length = cells.length)
    (hleg : Legal C dv Spec.start (ops ++ [.set s x y z cells, .get s x y z target])) :
    Always (run C World.init (ops ++ [.set s x y z cells, .get s x y z target]))
      fun r => ∃ outs, r.2 = outs ++ [.unit, .cells cells] := by
  refine run_append hL htr (DR.init (C := C)) ops _ (dv := dv) hleg (P := fun l => ∃ outs, l = outs ++ [.unit, .cells cells]) ?_
  rintro D a outs - hR ⟨hpre, hlim, hnext⟩
  unfold run
  refine (step_set hL htr dv hR s x y z cells hpre hlim).bind ?_
  rintro q1 ⟨ag, new, h1, h2, h3, h4, h5⟩
  obtain ⟨hpre2, hlim2, -⟩ := hnext _ _ (Spec.Post.set a s x y z cells new ag h1 h2)
  have hne : a s ≠ .absent := by rw [h1]; exact fun h => nomatch h
  unfold run
  have hlv : live (LFA.World.upd a s (.grid { ag with cells := Spec.setRow ag.cells x y z cells.length new })) = live a := live_grid hne _
  refine Always.bind (P := fun p => p.2 = [.cells cells]) ?_ ?_
  · refine (step_get hL htr dv h4 s x y z target hpre2 hlim2 (l := cells.map some) (by rw [hlv]; exact h5)).bind ?_
    rintro q2 ⟨stale, k1, k2, k3, -⟩
    unfold run
    refine (Always.pure (P := fun p : World V × List (Out V) => p.2 = []) rfl).bind fun p hp => Always.pure ?_
    simp only [hp]
    have hst : stale = cells := by
      apply List.ext_getElem? fun j => ?_
      by_cases hj : j < cells.length
      · rw [List.getElem?_eq_getElem hj]
        exact k2 j _ (by omega) (by rw [List.getElem?_map, List.getElem?_eq_getElem hj]; rfl)
      · rw [List.getElem?_eq_none (by omega), List.getElem?_eq_none (by omega)]
    subst hst
    cases hq : q2.2 with
    | cells out =>
      rw [hq] at k3
      cases k3 with
      | get _ _ _ _ _ _ g hg hl ho =>
        rw [upd_self] at hg; cases hg
        congr 1
        congr 1
        apply List.ext_getElem? fun j => ?_
        by_cases hj : j < stale.length
        · have e1 := h2 j hj
          rw [ho j _ e1, e1]
          congr 1
          funext r k
          simp only [overlay, Spec.setRow]
          rw [if_pos ⟨trivial, trivial, by omega, by omega⟩, show x + j - x = j by omega]
          split <;> simp
        · rw [List.getElem?_eq_none (l := out) (by rw [hl]; omega), List.getElem?_eq_none (by omega)]
    | _ => rw [hq] at k3; cases k3
  · rintro q2 h
    exact Always.pure ⟨outs, by rw [h3, h]⟩

/-! ### A program -/

theorem Legal.new {a : AWorld V} {s : Nat} {d e : Ext} {ops : List (Op V)} (hs : a s = .absent) (hd : d ≠ ⟨0, 0, 0⟩)
    (hl : LaunchDims d) (he : selectSizes C.tr d = .ok e)
    (h : Legal C dv (LFA.World.upd a s (.grid ⟨d, some e, Spec.dfltCells C.L dv⟩)) ops) : Legal C dv a (.new s d :: ops) := by
  refine ⟨hs, hl, fun a' out hp => ?_⟩
  change Spec.Post C dv a (.new s d) a' out at hp
  cases hp with
  | newBlank => exact absurd rfl hd
  | newFail _ _ x _ hx => rw [he] at hx; cases hx
  | new _ _ e' _ he' => rw [he] at he'; cases he'; exact h

theorem Legal.set {a : AWorld V} {s x y z : Nat} {cells : List (Cell V)} {g : AGrid V} {ops : List (Op V)}
    (hs : a s = .grid g) (hx : x + cells.length ≤ g.dim.x) (hy : y < g.dim.y) (hz : z < g.dim.z) (hl : cells.length < 2 ^ 31)
    (h : ∀ cells', Legal C dv (LFA.World.upd a s (.grid { g with cells := cells' })) ops) :
    Legal C dv a (.set s x y z cells :: ops) := by
  refine ⟨⟨g, hs, hx, hy, hz⟩, hl, fun a' out hp => ?_⟩
  change Spec.Post C dv a (.set s x y z cells) a' out at hp
  cases hp with
  | set _ _ _ _ _ new g' hg' hn => rw [hs] at hg'; cases hg'; exact h _

theorem Legal.broadcast {a : AWorld V} {s x y z : Nat} {cell : Cell V} {n : Nat} {g : AGrid V} {ops : List (Op V)}
    (hs : a s = .grid g) (hx : x + n ≤ g.dim.x) (hy : y < g.dim.y) (hz : z < g.dim.z) (hl : n < 2 ^ 31)
    (h : ∀ cells', Legal C dv (LFA.World.upd a s (.grid { g with cells := cells' })) ops) :
    Legal C dv a (.broadcast s x y z cell n :: ops) := by
  refine ⟨⟨g, hs, hx, hy, hz⟩, hl, fun a' out hp => ?_⟩
  change Spec.Post C dv a (.broadcast s x y z cell (min n 1)) a' out at hp
  cases hp with
  | broadcast _ _ _ _ _ _ g' hg' => rw [hs] at hg'; cases hg'; exact h _

theorem Legal.get {a : AWorld V} {s x y z : Nat} {target : List (Cell V)} {g : AGrid V} {ops : List (Op V)}
    (hs : a s = .grid g) (hx : x + target.length ≤ g.dim.x) (hy : y < g.dim.y) (hz : z < g.dim.z) (hl : target.length < 2 ^ 31)
    (h : Legal C dv a ops) : Legal C dv a (.get s x y z target :: ops) := by
  refine ⟨⟨g, hs, hx, hy, hz⟩, hl, fun a' out hp => ?_⟩
  obtain ⟨stale, -, hp⟩ := hp
  cases hp with
  | get _ _ _ _ _ g' hg' => exact h

theorem Legal.peek {a : AWorld V} {s : Nat} {x y z X Y Z : Int} {r k : Nat} {g : AGrid V} {m : Member V}
    {ops : List (Op V)} (hs : a s = .grid g) (hm : C.L[r]? = some m) (hk : k < m.elems)
    (hx : 0 ≤ x + X ∧ x + X < g.dim.x) (hy : 0 ≤ y + Y ∧ y + Y < g.dim.y) (hz : 0 ≤ z + Z ∧ z + Z < g.dim.z)
    (h : Legal C dv a ops) : Legal C dv a (.peek s x y z X Y Z r k :: ops) := by
  refine ⟨⟨g, m, hs, hm, hk, hx.1, hx.2, hy.1, hy.2, hz.1, hz.2⟩, trivial, fun a' out hp => ?_⟩
  change Spec.Post C dv a (.peek s x y z X Y Z r k) a' out at hp
  cases hp with
  | peek _ _ _ _ _ _ _ _ _ g' px py pz hg' => exact h

theorem Legal.destroy {a : AWorld V} {s : Nat} {ops : List (Op V)} (hs : a s ≠ .absent)
    (h : Legal C dv (LFA.World.upd a s .absent) ops) : Legal C dv a (.destroy s :: ops) := by
  refine ⟨hs, trivial, fun a' out hp => ?_⟩
  change Spec.Post C dv a (.destroy s) a' out at hp
  cases hp with
  | destroy => exact h

/-- struct { double a; float b[3]; }; values are integers. -/
def demoL : Layout Int := [⟨⟨8, true⟩, none, 0⟩, ⟨⟨4, true⟩, some 3, 0⟩]

theorem demoL_WF : demoL.WF := by
  intro m hm
  simp only [demoL, List.mem_cons, List.not_mem_nil, or_false] at hm
  rcases hm with rfl | rfl <;> simp [Member.elems]

theorem demoL_triv : ∀ m ∈ demoL, m.ty.triv = true := by
  intro m hm
  simp only [demoL, List.mem_cons, List.not_mem_nil, or_false] at hm
  rcases hm with rfl | rfl <;> rfl

/-- Custom sizes 4 and 8 for x, 2 and 4 for y, 1 and 2 for z. -/
def demoC : Cfg Int := ⟨demoL, .custom [4, 8] [2, 4] [1, 2], false⟩

/-- Two grids, of which the second is destroyed again. -/
def demoOps : List (Op Int) :=
  [.new 0 ⟨3, 2, 2⟩, .new 1 ⟨5, 2, 2⟩, .set 0 1 1 1 [demoCell, demoCell], .get 0 0 1 1 [demoCell, demoCell, demoCell], .destroy 1]

theorem demo_legal (next : List (Op Int))
    (h : ∀ a cells, a 0 = .grid ⟨⟨3, 2, 2⟩, some ⟨4, 2, 2⟩, cells⟩ → (∀ s, s ≠ 0 → a s = .absent) → Legal demoC 0 a next) :
    Legal demoC 0 Spec.start (demoOps ++ next) := by
  refine .new rfl (by decide) (by simp [LaunchDims]) (e := ⟨4, 2, 2⟩) rfl ?_
  refine .new rfl (by decide) (by simp [LaunchDims]) (e := ⟨8, 2, 2⟩) rfl ?_
  refine .set (g := ⟨⟨3, 2, 2⟩, some ⟨4, 2, 2⟩, Spec.dfltCells demoL 0⟩) rfl (by decide) (by decide) (by decide) (by decide) ?_
  intro c1
  refine .get (g := ⟨⟨3, 2, 2⟩, some ⟨4, 2, 2⟩, c1⟩) rfl (by simp) (by simp) (by simp) (by decide) ?_
  refine .destroy (fun h => nomatch h) ?_
  refine h _ c1 rfl fun s hs => ?_
  by_cases h1 : s = 1
  · subst h1; rfl
  · simp [LFA.World.upd, h1, hs, Spec.start]

example := C60_history_partial demoL_WF demoL_triv demoOps (dv := 0) (by simpa using demo_legal [] fun _ _ _ _ => trivial)

/-- A program with an outcome in which all grids are destroyed. -/
example : ∃ D outs, run demoC World.init [.new 0 ⟨3, 2, 2⟩, .set 0 1 1 1 [demoCell], .destroy 0] (.ok (D, outs)) ∧
    (∀ s, D.w.g s = none) ∧ (∀ id, D.w.h.blk id = none) ∧ (∀ p, D.cs.heap p = none) ∧ ∀ p, D.rs.heap p = none := by
  have hleg : Legal demoC 0 Spec.start [.new 0 ⟨3, 2, 2⟩, .set 0 1 1 1 [demoCell], .destroy 0] :=
    .new rfl (by decide) (by simp [LaunchDims]) (e := ⟨4, 2, 2⟩) rfl <|
    .set (C := demoC) (g := ⟨⟨3, 2, 2⟩, some ⟨4, 2, 2⟩, Spec.dfltCells demoL 0⟩) rfl (by decide) (by decide) (by decide) (by decide) fun _ =>
    .destroy (fun h => nomatch h) trivial
  have := run_always demoL_WF demoL_triv (DR.init (C := demoC)) [.new 0 ⟨3, 2, 2⟩, .set 0 1 1 1 [demoCell], .destroy 0] [] (dv := 0) hleg
  obtain ⟨r, hr⟩ := this.1
  obtain ⟨q, rfl, a, k1, k2, -⟩ := this.2 r hr
  have ha : ∀ s, a s = .absent := by
    generalize q.2 = outs at k1
    rcases k1 with _ | ⟨p1, k1⟩
    rcases k1 with _ | ⟨p2, k1⟩
    rcases k1 with _ | ⟨p3, k1⟩
    rcases k1 with _ | _
    unfold Post at p1 p2 p3
    cases p3
    cases p2 with
    | set _ _ _ _ _ new g hg hn =>
      cases p1 with
      | newFail _ _ x _ hx => cases hx
      | new _ _ e _ he =>
        intro s
        by_cases h : s = 0
        · subst h; rfl
        · simp [LFA.World.upd, h]
  have hg : ∀ s, q.1.w.g s = none := fun s => by have := k2.host.slots s; rw [ha s] at this; exact this
  exact ⟨q.1, q.2, hr, hg, C60_no_leak demoL_WF demoL_triv _ hleg q.1 q.2 hr hg⟩

example := C60_get_after_set demoL_WF demoL_triv [.new 0 ⟨3, 2, 2⟩] 0 1 1 1 [demoCell] [fun _ _ => 5] (dv := 0) rfl <|
    .new rfl (by decide) (by simp [LaunchDims]) (e := ⟨4, 2, 2⟩) rfl <|
    .set (C := demoC) (g := ⟨⟨3, 2, 2⟩, some ⟨4, 2, 2⟩, Spec.dfltCells demoL 0⟩) rfl (by decide) (by decide) (by decide) (by decide) fun c =>
    .get (g := ⟨⟨3, 2, 2⟩, some ⟨4, 2, 2⟩, c⟩) rfl (by simp) (by simp) (by simp) (by decide) trivial

/-- C60 is false for members which are not registered: `get` does not leave them as they were in the target, but replaces them by
    those of a struct which has been `set` before. None of the outcomes is one which a grid on the host could have. -/
theorem C60_false_get : ∃ ops : List (Op Int), Legal demoC 0 Spec.start ops ∧ Spec.Legal demoC 0 Spec.start ops ∧
    Always (run demoC World.init ops) fun q => ∀ a, ¬ Spec.Run demoC 0 Spec.start ops a q.2 := by
  have hleg : Legal demoC 0 Spec.start [.new 0 ⟨3, 2, 2⟩, .set 0 1 1 1 [demoCell], .get 0 1 1 1 [fun _ _ => 5]] :=
    .new rfl (by decide) (by simp [LaunchDims]) (e := ⟨4, 2, 2⟩) rfl <|
    .set (C := demoC) (g := ⟨⟨3, 2, 2⟩, some ⟨4, 2, 2⟩, Spec.dfltCells demoL 0⟩) rfl (by decide) (by decide) (by decide) (by decide) fun c =>
    .get (g := ⟨⟨3, 2, 2⟩, some ⟨4, 2, 2⟩, c⟩) rfl (by simp) (by simp) (by simp) (by decide) trivial
  refine ⟨_, hleg, ?_, ?_⟩
  · refine Spec.Legal.new rfl (by decide) (e := ⟨4, 2, 2⟩) rfl ?_
    refine Spec.Legal.set (g := ⟨⟨3, 2, 2⟩, some ⟨4, 2, 2⟩, Spec.dfltCells demoL 0⟩) rfl (by decide) (by decide) (by decide) fun c => ?_
    exact ⟨⟨⟨⟨3, 2, 2⟩, some ⟨4, 2, 2⟩, c⟩, rfl, by simp, by simp, by simp⟩, fun _ _ _ => trivial⟩
  · refine (C60_get_after_set demoL_WF demoL_triv [.new 0 ⟨3, 2, 2⟩] 0 1 1 1 [demoCell] [fun _ _ => 5] (dv := 0) rfl hleg).mono ?_
    rintro q ⟨outs, h⟩ a hrun
    rw [h] at hrun
    have h3 : ∃ o1 o2 o3, outs ++ [Out.unit, .cells [demoCell]] = [o1, o2, o3] ∧
        ∀ l, o3 = .cells l → ∃ c, l[0]? = some c ∧ c 2 0 = 5 := by
      generalize outs ++ [Out.unit, .cells [demoCell]] = outs at hrun
      rcases hrun with _ | ⟨p1, k1⟩
      rcases k1 with _ | ⟨p2, k1⟩
      rcases k1 with _ | ⟨p3, k1⟩
      rcases k1 with _ | _
      refine ⟨_, _, _, rfl, ?_⟩
      rintro l rfl
      cases p3 with
      | get _ _ _ _ _ _ g hg hl ho => exact ⟨_, ho 0 _ rfl, rfl⟩
    obtain ⟨o1, o2, o3, h4, h5⟩ := h3
    have h6 : o3 = .cells [demoCell] := by
      have := congrArg List.getLast? h4
      simpa using this.symm
    obtain ⟨c, h7, h8⟩ := h5 _ h6
    cases h7
    revert h8
    decide

/-- C60 is false for `set` of one struct to a row: the second cell keeps its value. None of the outcomes is one which a grid on the
    host could have. -/
theorem C60_false_broadcast : ∃ ops : List (Op Int), Legal demoC 0 Spec.start ops ∧ Spec.Legal demoC 0 Spec.start ops ∧
    Always (run demoC World.init ops) fun q => ∀ a, ¬ Spec.Run demoC 0 Spec.start ops a q.2 := by
  have hleg : Legal demoC 0 Spec.start [.new 0 ⟨3, 2, 2⟩, .broadcast 0 1 1 1 demoCell 2, .peek 0 2 1 1 0 0 0 0 0] :=
    .new rfl (by decide) (by simp [LaunchDims]) (e := ⟨4, 2, 2⟩) rfl <|
    .broadcast (g := ⟨⟨3, 2, 2⟩, some ⟨4, 2, 2⟩, Spec.dfltCells demoL 0⟩) rfl (by decide) (by decide) (by decide) (by decide) fun c =>
    .peek (g := ⟨⟨3, 2, 2⟩, some ⟨4, 2, 2⟩, c⟩) (m := ⟨⟨8, true⟩, none, 0⟩) rfl rfl (by decide) (by simp) (by simp) (by simp) trivial
  refine ⟨_, hleg, ?_, ?_⟩
  · refine Spec.Legal.new rfl (by decide) (e := ⟨4, 2, 2⟩) rfl ?_
    refine ⟨⟨⟨⟨3, 2, 2⟩, some ⟨4, 2, 2⟩, Spec.dfltCells demoL 0⟩, rfl, by decide, by decide, by decide⟩, fun a out h => ?_⟩
    cases h with
    | broadcast _ _ _ _ _ _ g hg =>
      cases hg
      exact ⟨⟨_, _, rfl, rfl, by decide, by simp, by simp, by simp, by simp, by simp, by simp⟩, fun _ _ _ => trivial⟩
  · obtain ⟨h1, h2⟩ := C60_history_partial (C := demoC) demoL_WF demoL_triv _ hleg
    refine ⟨h1, fun r hr => ?_⟩
    obtain ⟨D, outs, a, rfl, h3⟩ := h2 r hr
    refine ⟨_, rfl, fun a' h4 => ?_⟩
    have e1 : ∃ o1 o2, outs = [o1, o2, .val (some 0)] := by
      rcases h3 with _ | ⟨p1, k1⟩
      rcases k1 with _ | ⟨p2, k1⟩
      rcases k1 with _ | ⟨p3, k1⟩
      rcases k1 with _ | _
      simp only [Post] at p1 p2 p3
      cases p1 with
      | newFail _ _ x _ hx => cases hx
      | new _ _ e _ he =>
        cases p2 with
        | broadcast _ _ _ _ _ _ g hg =>
          cases hg
          cases p3 with
          | peek _ _ _ _ _ _ _ _ _ g px py pz hg hx hy hz =>
            cases hg
            obtain rfl : px = 2 := by omega
            obtain rfl : py = 1 := by omega
            obtain rfl : pz = 1 := by omega
            exact ⟨_, _, rfl⟩
    have e2 : ∃ o1 o2, outs = [o1, o2, .val (some 1)] := by
      rcases h4 with _ | ⟨p1, k1⟩
      rcases k1 with _ | ⟨p2, k1⟩
      rcases k1 with _ | ⟨p3, k1⟩
      rcases k1 with _ | _
      cases p1 with
      | newFail _ _ x _ hx => cases hx
      | new _ _ e _ he =>
        cases p2 with
        | broadcast _ _ _ _ _ _ g hg =>
          cases hg
          cases p3 with
          | peek _ _ _ _ _ _ _ _ _ g px py pz hg hx hy hz =>
            cases hg
            obtain rfl : px = 2 := by omega
            obtain rfl : py = 1 := by omega
            obtain rfl : pz = 1 := by omega
            exact ⟨_, _, rfl⟩
    obtain ⟨_, _, rfl⟩ := e1
    obtain ⟨_, _, h⟩ := e2
    simp at h

end Dev
end LFA
