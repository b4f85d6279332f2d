import Verif.GridObs

/-
  A concrete program, used to show that the hypotheses of the theorems about soa_grid can be met.
-/
namespace LFA

section
variable {V : Type} {C : Cfg V} {dv : V}

theorem Spec.Legal.new {a : AWorld V} {s : Nat} {d e : Ext} {ops : List (Op V)} (hs : a s = .absent) (hd : d ≠ ⟨0, 0, 0⟩)
    (he : selectSizes C.tr d = .ok e)
    (h : Spec.Legal C dv (World.upd a s (.grid ⟨d, some e, Spec.dfltCells C.L dv⟩)) ops) :
    Spec.Legal C dv a (.new s d :: ops) := by
  refine ⟨hs, fun a' out hp => ?_⟩
  cases hp with
  | newBlank => exact absurd rfl hd
  | newFail _ _ x _ hx => rw [he] at hx; cases hx
  | new _ _ e' _ he' => rw [he] at he'; cases he'; exact h

theorem Spec.Legal.set {a : AWorld V} {s x y z : Nat} {cells : List (Cell V)} {g : AGrid V} {ops : List (Op V)}
    (hs : a s = .grid g) (hx : x + cells.length ≤ g.dim.x) (hy : y < g.dim.y) (hz : z < g.dim.z)
    (h : ∀ cells', Spec.Legal C dv (World.upd a s (.grid { g with cells := cells' })) ops) :
    Spec.Legal C dv a (.set s x y z cells :: ops) := by
  refine ⟨⟨g, hs, hx, hy, hz⟩, fun a' out hp => ?_⟩
  cases hp with
  | set _ _ _ _ _ new g' hg' hn => rw [hs] at hg'; cases hg'; exact h _

theorem Spec.Legal.poke {a : AWorld V} {s : Nat} {x y z X Y Z : Int} {r k : Nat} {v : V} {g : AGrid V} {m : Member V}
    {ops : List (Op V)} (hs : a s = .grid g) (hm : C.L[r]? = some m) (hk : k < m.elems)
    (hx : 0 ≤ x + X ∧ x + X < g.dim.x) (hy : 0 ≤ y + Y ∧ y + Y < g.dim.y) (hz : 0 ≤ z + Z ∧ z + Z < g.dim.z)
    (h : ∀ cells', Spec.Legal C dv (World.upd a s (.grid { g with cells := cells' })) ops) :
    Spec.Legal C dv a (.poke s x y z X Y Z r k v :: ops) := by
  refine ⟨⟨g, m, hs, hm, hk, hx.1, hx.2, hy.1, hy.2, hz.1, hz.2⟩, fun a' out hp => ?_⟩
  cases hp with
  | poke _ _ _ _ _ _ _ _ _ _ g' px py pz hg' => rw [hs] at hg'; cases hg'; exact h _

theorem Spec.Legal.copy {a : AWorld V} {s t : Nat} {g : AGrid V} {ops : List (Op V)} (hs : a s = .absent)
    (ht : a t = .grid g) (h : Spec.Legal C dv (World.upd a s (.grid { g with ext := none })) ops) :
    Spec.Legal C dv a (.copy s t :: ops) := by
  refine ⟨⟨hs, g, ht⟩, fun a' out hp => ?_⟩
  cases hp with
  | copy _ _ g' hg' => rw [ht] at hg'; cases hg'; exact h

theorem Spec.Legal.nil {a : AWorld V} : Spec.Legal C dv a [] := trivial
end

/-- struct { double a; float b[3]; std::string c; } with example sizes; values are integers. -/
def demoL : Layout Int := [⟨⟨8, true⟩, none, 0⟩, ⟨⟨4, true⟩, some 3, 0⟩, ⟨⟨32, false⟩, none, -1⟩]

theorem demoL_WF : demoL.WF := by
  intro m hm
  simp only [demoL, List.mem_cons, List.not_mem_nil, or_false] at hm
  rcases hm with rfl | rfl | rfl <;> simp [Member.elems]

/-- Custom sizes 4 and 8 for x, 2 and 4 for y, 1 and 2 for z. -/
def demoC : Cfg Int := ⟨demoL, .custom [4, 8] [2, 4] [1, 2], false⟩

/-- All members and array elements differ. -/
def demoCell : Cell Int := fun r k => 10 * r + k + 1

/-- Two grids; a cell and a single array element are written. -/
def demoOps : List (Op Int) :=
  [.new 0 ⟨3, 2, 2⟩, .new 1 ⟨5, 2, 2⟩, .set 0 1 1 1 [demoCell], .poke 0 1 1 1 (-1) 0 0 1 2 77]

theorem demo_legal_next (next : List (Op Int))
    (h : ∀ cells cells', Spec.Legal demoC 0 (World.upd (World.upd (World.upd (World.upd Spec.start 0
      (.grid ⟨⟨3, 2, 2⟩, some ⟨4, 2, 2⟩, Spec.dfltCells demoL 0⟩)) 1
      (.grid ⟨⟨5, 2, 2⟩, some ⟨8, 2, 2⟩, Spec.dfltCells demoL 0⟩)) 0 (.grid ⟨⟨3, 2, 2⟩, some ⟨4, 2, 2⟩, cells⟩)) 0
      (.grid ⟨⟨3, 2, 2⟩, some ⟨4, 2, 2⟩, cells'⟩)) next) :
    Spec.Legal demoC 0 Spec.start (demoOps ++ next) := by
  refine .new rfl (by decide) (e := ⟨4, 2, 2⟩) rfl ?_
  refine .new rfl (by decide) (e := ⟨8, 2, 2⟩) rfl ?_
  refine .set (g := ⟨⟨3, 2, 2⟩, some ⟨4, 2, 2⟩, Spec.dfltCells demoL 0⟩) rfl (by decide) (by decide) (by decide) ?_
  intro c1
  refine .poke (g := ⟨⟨3, 2, 2⟩, some ⟨4, 2, 2⟩, c1⟩) (m := ⟨⟨4, true⟩, some 3, 0⟩) rfl rfl (by decide) (by simp) (by simp)
    (by simp) ?_
  intro c2
  exact h c1 c2

theorem demo_legal : Spec.Legal demoC 0 Spec.start demoOps := by
  have := demo_legal_next [] (fun _ _ => trivial)
  rwa [List.append_nil] at this

theorem demo_run : ∃ w outs, World.init.run demoC demoOps = .ok (w, outs) := by
  obtain ⟨w, outs, a, h1, _⟩ := run_refines (C := demoC) (dv := 0) demoL_WF R.init demoOps []
    (by rw [List.append_nil]; exact demo_legal)
  exact ⟨w, outs, h1⟩

/-- The state after `demoOps`. -/
noncomputable def demoW : World Int := demo_run.choose

theorem demo_runs : ∃ outs, World.init.run demoC demoOps = .ok (demoW, outs) := demo_run.choose_spec

theorem demo_valid : Valid demoC 0 demoW := by
  obtain ⟨outs, h⟩ := demo_runs
  exact ⟨demoOps, outs, demo_legal, h⟩

theorem demo_abs : ∃ a cells, R demoC demoW a ∧ a 0 = .grid ⟨⟨3, 2, 2⟩, some ⟨4, 2, 2⟩, cells⟩ ∧
    (∃ c1, a 1 = .grid ⟨⟨5, 2, 2⟩, some ⟨8, 2, 2⟩, c1⟩) ∧ ∀ s, 2 ≤ s → a s = .absent := by
  obtain ⟨w, outs, a, h1, h2, h3, _⟩ := run_refines (C := demoC) (dv := 0) demoL_WF R.init demoOps []
    (by rw [List.append_nil]; exact demo_legal)
  obtain ⟨outs', h⟩ := demo_runs
  rw [h] at h1
  injection h1 with h1
  injection h1 with h1 _
  subst h1
  have aux : ∀ {a0 a1 : AWorld Int} {op ops outs}, Spec.Run demoC 0 a0 (op :: ops) a1 outs →
      ∃ a' out outs', Spec.Post demoC 0 a0 op a' out ∧ Spec.Run demoC 0 a' ops a1 outs' := by
    intro a0 a1 op ops outs h
    cases h with
    | cons hp h => exact ⟨_, _, _, hp, h⟩
  obtain ⟨a1, _, _, p1, h2⟩ := aux h2
  obtain ⟨a2, _, _, p2, h2⟩ := aux h2
  obtain ⟨a3, _, _, p3, h2⟩ := aux h2
  obtain ⟨a4, _, _, p4, h2⟩ := aux h2
  cases h2
  cases p1 with
  | newFail _ _ x _ hx => cases hx
  | new _ _ e _ he =>
    cases he
    cases p2 with
    | newFail _ _ x _ hx => cases hx
    | new _ _ e _ he =>
      cases he
      cases p3 with
      | set _ _ _ _ _ new g hg hn =>
        cases hg
        cases p4 with
        | poke _ _ _ _ _ _ _ _ _ _ g' px py pz hg' =>
          cases hg'
          exact ⟨_, _, h3, rfl, ⟨_, rfl⟩, fun s hs => by
            have h0 : s ≠ 0 := by omega
            have h1 : s ≠ 1 := by omega
            simp [World.upd, h0, h1]⟩

theorem demo_dims0 : DimsAre demoC demoW 0 ⟨3, 2, 2⟩ := by
  obtain ⟨a, cells, hR, h0, _⟩ := demo_abs
  exact hR.dims h0

theorem demo_dims1 : DimsAre demoC demoW 1 ⟨5, 2, 2⟩ := by
  obtain ⟨a, cells, hR, _, ⟨c1, h1⟩, _⟩ := demo_abs
  exact hR.dims h1

theorem demo_free {s : Nat} (hs : 2 ≤ s) : demoW.g s = none := by
  obtain ⟨a, cells, hR, _, _, h2⟩ := demo_abs
  exact hR.absent (h2 s hs)

theorem demo_next (op : Op Int)
    (h : ∀ cells cells', Spec.Legal demoC 0 (World.upd (World.upd (World.upd (World.upd Spec.start 0
      (.grid ⟨⟨3, 2, 2⟩, some ⟨4, 2, 2⟩, Spec.dfltCells demoL 0⟩)) 1
      (.grid ⟨⟨5, 2, 2⟩, some ⟨8, 2, 2⟩, Spec.dfltCells demoL 0⟩)) 0 (.grid ⟨⟨3, 2, 2⟩, some ⟨4, 2, 2⟩, cells⟩)) 0
      (.grid ⟨⟨3, 2, 2⟩, some ⟨4, 2, 2⟩, cells'⟩)) [op]) : ValidNext demoC 0 demoW [op] := by
  obtain ⟨outs, hr⟩ := demo_runs
  exact ⟨demoOps, outs, demo_legal_next [op] h, hr⟩

theorem demo_inDim0 : InDim ⟨3, 2, 2⟩ 2 1 0 := by simp [InDim]

/-- A raw buffer for `n` structs of the demo layout in which the strings have been constructed. -/
def demoRaw (n : Nat) : Block Int :=
  ⟨52 * n, fun i => if i < 20 * n then .undef else .frag 0 ⟨32, false⟩ ((i - 20 * n) % 32)⟩

theorem demoRaw_ready (n : Nat) : Spec.RawReady demoC.L n (demoRaw n) := by
  have hL : demoC.L = demoL := rfl
  rw [hL]
  refine ⟨?_, ?_, ?_⟩
  · show n * Spec.structBytes demoL ≤ 52 * n
    have : Spec.structBytes demoL = 52 := by decide
    rw [this, Nat.mul_comm]
  · intro r m k i hm hk hi ht j hj
    match r, hm with
    | 0, hm =>
      cases hm
      have : k = 0 := by simpa [Member.elems] using hk
      subst this
      have : Spec.bytesBefore demoL 0 = 0 := by decide
      simp only [this, demoRaw] at hj ⊢
      rw [if_pos (by omega)]; rfl
    | 1, hm =>
      cases hm
      have hk3 : k < 3 := by simpa [Member.elems] using hk
      have : Spec.bytesBefore demoL 1 = 8 := by decide
      simp only [this, demoRaw] at hj ⊢
      have hb : n * (8 + 4 * k) ≤ n * 16 := Nat.mul_le_mul_left n (by omega)
      rw [if_pos (by omega)]; rfl
    | 2, hm => cases hm; cases ht
  · intro r m k i hm hk hi ht
    match r, hm with
    | 0, hm => cases hm; cases ht
    | 1, hm => cases hm; cases ht
    | 2, hm =>
      cases hm
      have : k = 0 := by simpa [Member.elems] using hk
      subst this
      have : Spec.bytesBefore demoL 2 = 20 := by decide
      refine ⟨0, fun j hj => ?_⟩
      simp only [this, demoRaw] at hj ⊢
      rw [if_neg (by omega)]
      congr 1
      omega

end LFA
