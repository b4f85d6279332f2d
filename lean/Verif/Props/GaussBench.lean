/-
  C62 for the benchmark of the Gauss filter as a whole.
-/
import Verif.GaussBench
import Verif.Props.GaussFilter
set_option linter.unusedSectionVars false
set_option linter.constructorNameAsVariable false
namespace LFA.GK
open SV (Expr Entry FEnv FOps)
open Thr (Loc Ref InGrid ValueIs)

variable {V : Type} [DecidableEq V] {C : Cfg V} {dv : V}

/-- The members before the first step: 1.0 in cells of the first grid which are at least four cells away from the borders of their plane,
    the members' defaults elsewhere. -/
def Gauss.initial (B : Bits 64 V) (C : Cfg V) (dv : V) (d : Ext) : Loc → V := fun l =>
  if l.s = 0 ∧ 0 ≤ l.x ∧ l.x < d.x ∧ 4 ≤ l.y ∧ l.y < (d.y : Int) - 4 ∧ 4 ≤ l.z ∧ l.z < (d.z : Int) - 4 then B.val 0x3ff0000000000000
  else match C.L[l.r]? with
    | some m => m.dflt
    | none => dv

/-- The sum of all temperatures of a grid, row by row. -/
def Gauss.heat (K : Gauss) (B : Bits 64 V) (F : FOps 64) (s : Nat) (d : Ext) (σ : Loc → V) : BitVec 64 :=
  (List.range d.z).foldl (fun a (z : Nat) => (List.range d.y).foldl (fun a (y : Nat) => (List.range d.x).foldl
    (fun a (x : Nat) => F.add a (K.num B s σ x y z)) a) a) 0

theorem mem_interior {dim : Nat} (h : 4 ≤ dim) (h' : dim ≤ 2 ^ 64) (i : Nat) : i ∈ Gauss.interior dim ↔ 4 ≤ i ∧ i < dim - 4 := by
  unfold Gauss.interior
  have e : (dim + 2 ^ 64 - 4) % 2 ^ 64 = dim - 4 := by
    have : dim + 2 ^ 64 - 4 = (dim - 4) + 2 ^ 64 := by omega
    rw [this, Nat.add_mod_right, Nat.mod_eq_of_lt (by have := h'; omega)]
  rw [e, List.mem_drop_iff_getElem]
  constructor
  · rintro ⟨j, hj, h⟩
    simp at h hj; omega
  · rintro ⟨h1, h2⟩
    exact ⟨i - 4, by simp; omega, by simp; omega⟩

theorem mem_warm {d : Ext} (hy : 4 ≤ d.y) (hy' : d.y ≤ 2 ^ 64) (hz : 4 ≤ d.z) (hz' : d.z ≤ 2 ^ 64) (p : Nat × Nat × Nat) :
    p ∈ Gauss.warmCells d ↔ p.1 < d.x ∧ 4 ≤ p.2.1 ∧ p.2.1 < d.y - 4 ∧ 4 ≤ p.2.2 ∧ p.2.2 < d.z - 4 := by
  obtain ⟨x, y, z⟩ := p
  simp only [Gauss.warmCells, List.mem_flatMap, List.mem_map, List.mem_range, mem_interior hy hy', mem_interior hz hz', Prod.mk.injEq]
  constructor
  · rintro ⟨z', h1, y', h2, x', h3, rfl, rfl, rfl⟩
    omega
  · intro h
    exact ⟨z, by omega, y, by omega, x, by omega, rfl, rfl, rfl⟩

theorem script_of_run {ops : List (Op V)} {W W' : World V} {outs : List (Out V)} (h : W.run C ops = .ok (W', outs)) (ho : ∀ o ∈ outs, o = .unit) :
    Gauss.script C ops W = .ok (W', .unit) := by
  induction ops generalizing W outs with
  | nil => simp only [World.run, Except.ok.injEq, Prod.mk.injEq] at h; rw [h.1]; rfl
  | cons op ops ih =>
    simp only [World.run] at h
    cases h1 : W.step C op with
    | error u => simp [h1] at h
    | ok q =>
      obtain ⟨W1, out⟩ := q
      simp only [h1] at h
      cases h2 : W1.run C ops with
      | error u => simp [h2] at h
      | ok q =>
        obtain ⟨W2, outs'⟩ := q
        simp only [h2, Except.ok.injEq, Prod.mk.injEq] at h
        obtain ⟨rfl, rfl⟩ := h
        obtain rfl := ho out List.mem_cons_self
        simp only [Gauss.script, h1]
        exact ih h2 fun o ho' => ho o (List.mem_cons_of_mem _ ho')

theorem sets_legal {s : Nat} {d : Ext} (c : Cell V) (ps : List (Nat × Nat × Nat)) (hps : ∀ p ∈ ps, p.1 < d.x ∧ p.2.1 < d.y ∧ p.2.2 < d.z)
    {a : AWorld V} (ha : ∃ g, a s = .grid g ∧ g.dim = d) :
    Spec.Legal C dv a (ps.map fun p => .set s p.1 p.2.1 p.2.2 [c]) := by
  induction ps generalizing a with
  | nil => trivial
  | cons p ps ih =>
    obtain ⟨g, h1, rfl⟩ := ha
    have hp := hps p List.mem_cons_self
    refine ⟨⟨g, h1, by simp only [List.length_cons, List.length_nil]; omega, hp.2.1, hp.2.2⟩, fun a' out hpost => ?_⟩
    refine ih (fun q hq => hps q (List.mem_cons_of_mem _ hq)) ?_
    cases hpost with
    | set _ _ _ _ _ _ g' h _ =>
      obtain rfl : g = g' := by simpa using h1.symm.trans h
      exact ⟨_, upd_self _ _ _, rfl⟩

theorem sets_run {s : Nat} (c : Cell V) (ps : List (Nat × Nat × Nat)) {a a' : AWorld V} {outs : List (Out V)} {g : AGrid V} (ha : a s = .grid g)
    (h : Spec.Run C dv a (ps.map fun p => .set s p.1 p.2.1 p.2.2 [c]) a' outs) :
    (∀ o ∈ outs, o = .unit) ∧ (∀ t, t ≠ s → a' t = a t) ∧ ∃ g', a' s = .grid g' ∧ g'.dim = g.dim ∧
      ∀ x y z, g'.cells x y z = if (x, y, z) ∈ ps then c else g.cells x y z := by
  induction ps generalizing a outs g with
  | nil => cases h; exact ⟨by simp, fun _ _ => rfl, g, ha, rfl, by simp⟩
  | cons p ps ih =>
    cases h with
    | cons hp hr =>
      cases hp with
      | set _ _ _ _ _ new g1 h1 hn =>
        obtain rfl : g = g1 := by simpa using ha.symm.trans h1
        obtain ⟨k1, k2, g', k3, k4, k5⟩ := ih (upd_self _ _ _) hr
        have hc : new 0 = c := by simpa using (hn 0 (by simp)).symm
        refine ⟨by simpa using k1, fun t ht => (k2 t ht).trans (upd_ne _ _ ht), g', k3, k4, fun x y z => ?_⟩
        rw [k5]
        simp only [List.mem_cons, Spec.setRow, List.length_cons, List.length_nil]
        by_cases hm : (x, y, z) ∈ ps
        · simp [hm]
        · by_cases he : (x, y, z) = p
          · subst he
            simp [hc]
          · rw [if_neg hm, if_neg, if_neg]
            · simp [he, hm]
            · rintro ⟨h2, h3, h4, h5⟩
              refine he (Prod.ext ?_ (Prod.ext h2 h3))
              show x = p.1
              omega

theorem gauss_init_aux (hL : C.L.WF) (B : Bits 64 V) (d ex : Ext) (hy : 4 ≤ d.y) (ps : List (Nat × Nat × Nat))
    (hps : ∀ p, p ∈ ps ↔ p.1 < d.x ∧ 4 ≤ p.2.1 ∧ p.2.1 < d.y - 4 ∧ 4 ≤ p.2.2 ∧ p.2.2 < d.z - 4)
    (hex : selectSizes C.tr d = .ok ex) :
    ∃ W, Gauss.script C (.new 0 d :: .new 1 d :: ps.map fun p => .set 0 p.1 p.2.1 p.2.2 [Gauss.one B]) World.init = .ok (W, .unit) ∧
      Valid C dv W ∧ DimsAre C W 0 d ∧ DimsAre C W 1 d ∧ (∀ s d', DimsAre C W s d' → s = 0 ∨ s = 1) ∧
      ∀ l, InGrid C W l → ValueIs C W l (Gauss.initial B C dv d l) := by
  have hd : d ≠ ⟨0, 0, 0⟩ := by rintro rfl; simp at hy
  have hin : ∀ p ∈ ps, p.1 < d.x ∧ p.2.1 < d.y ∧ p.2.2 < d.z := fun p hp => by
    have := (hps p).1 hp; omega
  have hleg : Spec.Legal C dv Spec.start (.new 0 d :: .new 1 d :: ps.map fun p => .set 0 p.1 p.2.1 p.2.2 [Gauss.one B]) := by
    refine .new rfl hd hex (.new (by simp [World.upd, Spec.start]) hd hex ?_)
    exact sets_legal _ _ hin ⟨_, (upd_ne _ _ (show (0 : Nat) ≠ 1 by decide)).trans (upd_self _ _ _), rfl⟩
  obtain ⟨W, outs, a, h1, h2, h3, -⟩ := run_refines (C := C) (dv := dv) hL R.init _ [] (by rw [List.append_nil]; exact hleg)
  cases h2 with
  | cons p1 r1 =>
    cases r1 with
    | cons p2 r2 =>
      cases p1 with
      | newFail _ _ _ _ hx => exact absurd (hx.symm.trans hex) (by simp)
      | newBlank => exact absurd rfl hd
      | new _ _ e' _ he' =>
        cases p2 with
        | newFail _ _ _ _ hx => exact absurd (hx.symm.trans hex) (by simp)
        | newBlank => exact absurd rfl hd
        | new _ _ e'' _ he'' =>
          obtain ⟨k1, k2, g, k3, k4, k5⟩ := sets_run _ _ ((upd_ne _ _ (show (0 : Nat) ≠ 1 by decide)).trans (upd_self _ _ _)) r2
          have hdm : g.dim = d := k4
          have a1 := (k2 1 (by decide)).trans (upd_self _ _ _)
          refine ⟨W, script_of_run h1 (by simpa using k1), ⟨_, _, hleg, h1⟩, hdm ▸ h3.dims k3, h3.dims a1, fun s d' hs => ?_, fun l hl => ?_⟩
          · by_contra hc
            rw [not_or] at hc
            have : a s = .absent := (k2 s hc.1).trans ((upd_ne _ _ hc.2).trans (upd_ne _ _ hc.1))
            simp [DimsAre, World.step, World.withG, h3.absent this] at hs
          · have hla := (Thr.inA_iff h3 l).2 hl
            have := Thr.peek_step (dv := dv) hL h3 (p := ⟨l.s, l.x, l.y, l.z, 0, 0, 0, l.r, l.k⟩) (by simpa [Thr.Ref.loc] using hla)
            have hv : Thr.valA dv a l = Gauss.initial B C dv d l := by
              obtain ⟨g', m, q1, q2, q3, q4⟩ := hla
              by_cases h0 : l.s = 0
              · rw [h0, k3] at q1
                obtain rfl : g = g' := by simpa using q1
                rw [hdm] at q4
                unfold Thr.valA Gauss.initial
                rw [h0, k3]
                simp only [k5, hps, true_and]
                by_cases hw : l.x.toNat < d.x ∧ 4 ≤ l.y.toNat ∧ l.y.toNat < d.y - 4 ∧ 4 ≤ l.z.toNat ∧ l.z.toNat < d.z - 4
                · have hw' : 0 ≤ l.x ∧ l.x < d.x ∧ 4 ≤ l.y ∧ l.y < (d.y : Int) - 4 ∧ 4 ≤ l.z ∧ l.z < (d.z : Int) - 4 := by omega
                  rw [if_pos hw, if_pos hw']; rfl
                · have hw' : ¬ (0 ≤ l.x ∧ l.x < d.x ∧ 4 ≤ l.y ∧ l.y < (d.y : Int) - 4 ∧ 4 ≤ l.z ∧ l.z < (d.z : Int) - 4) := by omega
                  rw [if_neg hw, if_neg hw']; rfl
              · have h1' : l.s = 1 := by
                  by_contra hc
                  rw [(k2 l.s h0).trans ((upd_ne _ _ hc).trans (upd_ne _ _ h0))] at q1
                  cases q1
                unfold Thr.valA Gauss.initial
                rw [h1', a1, if_neg (by simp)]
                rfl
            rw [← hv]
            simpa [ValueIs, Thr.Ref.loc] using this

/-- What `init` leaves, and how the grids have been constructed. -/
theorem gauss_init (hL : C.L.WF) (B : Bits 64 V) (d ex : Ext) (hy : 4 ≤ d.y) (hy' : d.y ≤ 2 ^ 64) (hz : 4 ≤ d.z) (hz' : d.z ≤ 2 ^ 64)
    (hex : selectSizes C.tr d = .ok ex) :
    ∃ W, Gauss.script C ([.new 0 d, .new 1 d] ++ (Gauss.warmCells d).map fun p => .set 0 p.1 p.2.1 p.2.2 [Gauss.one B]) World.init = .ok (W, .unit) ∧
      Valid C dv W ∧ DimsAre C W 0 d ∧ DimsAre C W 1 d ∧ (∀ s d', DimsAre C W s d' → s = 0 ∨ s = 1) ∧
      ∀ l, InGrid C W l → ValueIs C W l (Gauss.initial B C dv d l) := by
  have hw := mem_warm hy hy' hz hz'
  generalize Gauss.warmCells d = ps at hw
  exact gauss_init_aux hL B d ex hy ps hw hex

theorem gauss_sum (hL : C.L.WF) (B : Bits 64 V) (F : FOps 64) (K : Gauss) {W : World V} (hV : Valid C dv W) {s : Nat} {d : Ext} (hs : DimsAre C W s d)
    (hd : d ≠ ⟨0, 0, 0⟩) (hm : ∃ m, C.L[K.r]? = some m ∧ m.ty.size = 8 ∧ K.k < m.elems) {σ : Loc → V}
    (hσ : ∀ l, InGrid C W l → ValueIs C W l (σ l)) (hn : ∀ l, InGrid C W l → l.s = s → l.r = K.r → (B.bits (σ l)).isSome = true)
    (ps : List (Nat × Nat × Nat)) (hps : ∀ p ∈ ps, p.1 < d.x ∧ p.2.1 < d.y ∧ p.2.2 < d.z) (acc : BitVec 64) :
    Gauss.sum C B F K s W ps acc = .ok (ps.foldl (fun a p => F.add a (K.num B s σ p.1 p.2.1 p.2.2)) acc) := by
  obtain ⟨a, hR⟩ := hV.refines hL
  obtain ⟨g, hg, rfl⟩ := hR.of_dims hs hd
  obtain ⟨m, hm1, -, hm2⟩ := hm
  induction ps generalizing acc with
  | nil => rfl
  | cons p ps ih =>
    have hp := hps p List.mem_cons_self
    obtain ⟨W', out, a', k1, k2, k3⟩ := step_refines hL dv hR (.get s p.1 p.2.1 p.2.2 [fun _ _ => B.val 0])
      ⟨g, hg, by simp only [List.length_cons, List.length_nil]; omega, hp.2.1, hp.2.2⟩
    cases k2 with
    | get _ _ _ _ _ out g' h hl ho =>
      obtain rfl : g = g' := by simpa using hg.symm.trans h
      have hc := ho 0 _ rfl
      obtain ⟨c, rfl⟩ : ∃ c, out = [c] := List.length_eq_one_iff.1 hl
      simp only [List.getElem?_cons_zero, Option.some.injEq, Nat.add_zero] at hc
      subst hc
      have hin : InGrid C W ⟨s, p.1, p.2.1, p.2.2, K.r, K.k⟩ := ⟨g.dim, m, hs, hm1, hm2, by simp; omega⟩
      have h1 := hσ _ hin
      have h2 := Thr.peek_step (dv := dv) hL hR (p := ⟨s, p.1, p.2.1, p.2.2, 0, 0, 0, K.r, K.k⟩)
        (by simpa [Thr.Ref.loc] using (Thr.inA_iff hR _).2 hin)
      have h3 : σ ⟨s, p.1, p.2.1, p.2.2, K.r, K.k⟩ = g.cells p.1 p.2.1 p.2.2 K.r K.k := by
        have := h1.symm.trans h2
        simpa [Thr.valA, Thr.Ref.loc, hg] using this
      have h4 := hn _ hin rfl rfl
      have ho' : overlay C.L (g.cells p.1 p.2.1 p.2.2) (fun _ _ => B.val 0) K.r K.k = σ ⟨s, p.1, p.2.1, p.2.2, K.r, K.k⟩ := by
        rw [h3]; simp [overlay, hm1, hm2]
      obtain ⟨v, hv⟩ := Option.isSome_iff_exists.1 h4
      simp only [Gauss.sum, k1, ho', hv, List.foldl_cons]
      rw [ih _ (fun q hq => hps q (List.mem_cons_of_mem _ hq))]
      simp [Gauss.num, hv]

theorem heat_eq (K : Gauss) (B : Bits 64 V) (F : FOps 64) (s : Nat) (d : Ext) (σ : Loc → V) :
    (Gauss.allCells d).foldl (fun a p => F.add a (K.num B s σ p.1 p.2.1 p.2.2)) 0 = K.heat B F s d σ := by
  simp only [Gauss.allCells, Gauss.heat, List.foldl_flatMap, List.foldl_map]

/-- C62 for the whole benchmark, on all targets and with vectors of any arity: unless the heat before and after the first call differs by more
    than 0.1, in which case `std::logic_error` is thrown after that call, all reads and writes are well-defined, and the first grid ends up with the filter
    applied as often as there are time steps, to what `init` has set. -/
theorem C62_gauss_bench (hL : C.L.WF) (c : SV.Cfg) (e1 e : Entry 64) (he1 : e1 ∈ SV.doubleVecs c) (h1 : e1.impl.N = 1)
    (he : e ∈ SV.doubleVecs c) (E : FEnv) (B : Bits 64 V) (base : Nat → Nat) (hbase : ∀ id, 4096 ∣ base id) (K : Gauss) (d ex : Ext)
    (htr : C.tr = .dflt) (hm : ∃ m, C.L[K.r]? = some m ∧ m.ty.size = 8 ∧ K.k < m.elems ∧ B.bits m.dflt = some 0)
    (hx : d.x < 2 ^ 64) (hy : 4 ≤ d.y) (hy' : d.y ≤ 2 ^ 64) (hz : 4 ≤ d.z) (hz' : d.z ≤ 2 ^ 31) (hex : selectSizes C.tr d = .ok ex) (n : Nat) :
    let σ := Gauss.initial B C dv d
    let σ' := K.filtered B E.f64 0 1 d.x d.y d.z σ
    let r := K.bench C B base E e1 e d n
    if E.f64.gt (E.f64.sub (K.heat B E.f64 0 d σ) (K.heat B E.f64 1 d σ') &&& 0x7fffffffffffffff) 0x3fb999999999999a then
      ∃ W, r = .ok (W, .threw (.logicError "consistency check failed")) ∧ Valid C dv W ∧ DimsAre C W 0 d ∧ DimsAre C W 1 d ∧
        ∀ l, InGrid C W l → ValueIs C W l (σ' l)
    else ∃ W, r = .ok (W, .unit) ∧ Valid C dv W ∧ DimsAre C W 0 d ∧ DimsAre C W 1 d ∧
      ∀ l, InGrid C W l → ValueIs C W l (((fun σ => exchange 0 1 (K.filtered B E.f64 0 1 d.x d.y d.z σ))^[n] σ') l) := by
  intro σ σ' r
  obtain ⟨m, hm1, hm2, hm3, hm4⟩ := hm
  have hm : ∃ m, C.L[K.r]? = some m ∧ m.ty.size = 8 ∧ K.k < m.elems := ⟨m, hm1, hm2, hm3⟩
  have hd : d ≠ ⟨0, 0, 0⟩ := by rintro rfl; simp at hy
  have hz64 : d.z ≤ 2 ^ 64 := hz'.trans (by decide)
  have hF : K.Fit C d d.x d.y d.z := ⟨htr, hm, by omega, le_refl _, le_refl _, le_refl _, hx, hy', hz'⟩
  obtain ⟨W, w1, w2, w3, w4, -, w6⟩ := gauss_init (dv := dv) hL B d ex hy hy' hz hz64 hex
  have hin : ∀ p ∈ Gauss.allCells d, p.1 < d.x ∧ p.2.1 < d.y ∧ p.2.2 < d.z := by
    rintro ⟨x, y, z⟩ hp
    simp only [Gauss.allCells, List.mem_flatMap, List.mem_map, List.mem_range, Prod.mk.injEq] at hp
    obtain ⟨z', hz, y', hy, x', hx, rfl, rfl, rfl⟩ := hp
    exact ⟨hx, hy, hz⟩
  have n0 : ∀ l : Loc, l.r = K.r → (B.bits (σ l)).isSome = true := fun l hr => by
    simp only [σ, Gauss.initial]
    split
    · rw [B.bits_val]; rfl
    · rw [hr, hm1]; simp [hm4]
  have n1 : ∀ l : Loc, l.r = K.r → (B.bits (σ' l)).isSome = true := fun l hr => by
    simp only [σ', Gauss.filtered]
    split
    · simp [Gauss.conv, B.bits_val]
    · exact n0 l hr
  have s1 := gauss_sum hL B E.f64 K w2 w3 hd hm w6 (fun l _ _ h => n0 l h) _ hin 0
  rw [heat_eq] at s1
  obtain ⟨σ1, ⟨W', c1, c2, c3, c4⟩, c5, c6⟩ := C62_gauss (dv := dv) hL c e1 e he1 h1 he E B base hbase K d ex d.x d.y d.z hF hex 0 1 (by decide) W w2 w3 w4
    hd σ w6 (fun l _ _ h => n0 l h)
  have hσ1 : σ1 = σ' := by
    funext l
    simp only [σ', Gauss.filtered]
    split
    · rename_i h
      obtain ⟨s, x, y, z, r, k⟩ := l
      obtain ⟨rfl, rfl, rfl, h⟩ := h
      exact c5 x y z h
    · rename_i h
      exact c6 l h
  rw [hσ1] at c4
  clear c5 c6
  have hd0 := (c3 0 d).2 w3
  have hd1 := (c3 1 d).2 w4
  have hgrid : ∀ l, InGrid C W' l → InGrid C W l := fun l ⟨d', m', q1, q2⟩ => ⟨d', m', (c3 _ _).1 q1, q2⟩
  have s2 := gauss_sum hL B E.f64 K c2 hd1 hd hm (fun l hl => c4 l (hgrid l hl)) (fun l _ _ h => n1 l h) _ hin 0
  rw [heat_eq] at s2
  have hr : r = if Gauss.differ E.f64 (K.heat B E.f64 0 d σ) (K.heat B E.f64 1 d σ') then
      .ok (W', .threw (.logicError "consistency check failed")) else K.steps C B base E e1 e d.x d.y d.z 0 1 n W' := by
    simp only [r, Gauss.bench, w1, s1, c1, s2]
    rfl
  split
  · rename_i h
    exact ⟨W', hr.trans (if_pos h), c2, hd0, hd1, fun l hl => c4 l (hgrid l hl)⟩
  · rename_i h
    obtain ⟨W2, q1, q2, q3, q4⟩ := C62_gauss_steps (dv := dv) hL c e1 e he1 h1 he E B base hbase K d ex d.x d.y d.z hF hex 0 1 (by decide) W' c2 hd0 hd1 hd σ'
      (fun l hl => c4 l (hgrid l hl)) (fun l _ _ h => n1 l h) n
    exact ⟨W2, (hr.trans (if_neg h)).trans q1, q2, (q3 _ _).2 hd0, (q3 _ _).2 hd1,
      fun l ⟨d', m', p1, p2⟩ => q4 l ⟨d', m', (q3 _ _).1 p1, p2⟩⟩

/-- C64 for the whole benchmark with OpenMP: the same, with any number of threads, however they split the loop and take turns, and all threads
    can finish. -/
theorem C64_gauss_bench (hL : C.L.WF) (c : SV.Cfg) (e1 e : Entry 64) (he1 : e1 ∈ SV.doubleVecs c) (h1 : e1.impl.N = 1)
    (he : e ∈ SV.doubleVecs c) (E : FEnv) (B : Bits 64 V) (base : Nat → Nat) (hbase : ∀ id, 4096 ∣ base id) (K : Gauss) (d ex : Ext)
    (htr : C.tr = .dflt) (hm : ∃ m, C.L[K.r]? = some m ∧ m.ty.size = 8 ∧ K.k < m.elems ∧ B.bits m.dflt = some 0)
    (hx : d.x < 2 ^ 64) (hy : 4 ≤ d.y) (hy' : d.y ≤ 2 ^ 64) (hz : 4 ≤ d.z) (hz' : d.z ≤ 2 ^ 31) (hex : selectSizes C.tr d = .ok ex)
    (n : Nat) (zs : Nat → List Int) (hsp : Splits ⟨0, d.x, 2, d.y - 2, 2, d.z - 2⟩ n zs) (sched : List Nat) (scheds : List (List Nat)) :
    let σ := Gauss.initial B C dv d
    let σ' := K.filtered B E.f64 0 1 d.x d.y d.z σ
    (∀ r, K.benchPar C B base E e1 e d n zs sched scheds = some r →
      if E.f64.gt (E.f64.sub (K.heat B E.f64 0 d σ) (K.heat B E.f64 1 d σ') &&& 0x7fffffffffffffff) 0x3fb999999999999a then
        ∃ W, r = .ok (W, .threw (.logicError "consistency check failed")) ∧ Valid C dv W ∧ DimsAre C W 0 d ∧ DimsAre C W 1 d ∧
        ∀ l, InGrid C W l → ValueIs C W l (σ' l)
      else ∃ W, r = .ok (W, .unit) ∧ Valid C dv W ∧ DimsAre C W 0 d ∧ DimsAre C W 1 d ∧
        ∀ l, InGrid C W l → ValueIs C W l (((fun σ => exchange 0 1 (K.filtered B E.f64 0 1 d.x d.y d.z σ))^[scheds.length] σ') l)) ∧
    ∃ sched' scheds', scheds'.length = scheds.length ∧ (∀ i (h : i < scheds.length) (h' : i < scheds'.length), scheds[i] <+: scheds'[i]) ∧
      (K.benchPar C B base E e1 e d n zs (sched ++ sched') scheds').isSome = true := by
  intro σ σ'
  obtain ⟨m, hm1, hm2, hm3, hm4⟩ := hm
  have hm : ∃ m, C.L[K.r]? = some m ∧ m.ty.size = 8 ∧ K.k < m.elems := ⟨m, hm1, hm2, hm3⟩
  have hd : d ≠ ⟨0, 0, 0⟩ := by rintro rfl; simp at hy
  have hz64 : d.z ≤ 2 ^ 64 := hz'.trans (by decide)
  have hF : K.Fit C d d.x d.y d.z := ⟨htr, hm, by omega, le_refl _, le_refl _, le_refl _, hx, hy', hz'⟩
  obtain ⟨W, w1, w2, w3, w4, -, w6⟩ := gauss_init (dv := dv) hL B d ex hy hy' hz hz64 hex
  have hin : ∀ p ∈ Gauss.allCells d, p.1 < d.x ∧ p.2.1 < d.y ∧ p.2.2 < d.z := by
    rintro ⟨x, y, z⟩ hp
    simp only [Gauss.allCells, List.mem_flatMap, List.mem_map, List.mem_range, Prod.mk.injEq] at hp
    obtain ⟨z', hz, y', hy, x', hx, rfl, rfl, rfl⟩ := hp
    exact ⟨hx, hy, hz⟩
  have n0 : ∀ l : Loc, l.r = K.r → (B.bits (σ l)).isSome = true := fun l hr => by
    simp only [σ, Gauss.initial]
    split
    · rw [B.bits_val]; rfl
    · rw [hr, hm1]; simp [hm4]
  have n1 : ∀ l : Loc, l.r = K.r → (B.bits (σ' l)).isSome = true := fun l hr => by
    simp only [σ', Gauss.filtered]
    split
    · simp [Gauss.conv, B.bits_val]
    · exact n0 l hr
  have s1 := gauss_sum hL B E.f64 K w2 w3 hd hm w6 (fun l _ _ h => n0 l h) _ hin 0
  rw [heat_eq] at s1
  have hN := SV.double_arity c e he
  have hhi : (Peel.CTy.unsigned 64).hi = 2 ^ 64 := by decide
  have P := C64_double_sizes_partial (dv := dv) hL c e1 e he1 h1 he E B base hbase (K.functor E.f64) (gauss_only K _ _ _ _) 0 1
    (by intro j _ h; cases h) d d ex ex hex hex (.inr rfl) (gauss_suited hF hN hex) (.unsigned 64) (arity_facts hN)
    (Gauss.box d.x d.y d.z) (Int.le_refl 0) (by rw [hhi]; show (d.x : Int) < _; exact_mod_cast hx) 0 (by show (0 : Int) ≤ _; omega)
    (by show _ ≤ (d.x : Int); omega) n zs (by rw [gauss_box hF.lo hF.hy hF.hz]; exact hsp) W w2 w3 w4 hd hd σ w6 ((gauss_reach hF w3 w4).inside
      (by rintro l h1 h2 ⟨j, -, hj⟩; exact n0 l (hj.trans (gauss_src K _ j).2.1)))
  rw [gauss_apply K B E.f64 0 1 hF.lo hF.hy hF.hz] at P
  have next : ∀ sched r, updatePar C B base E (K.functor E.f64) (.unsigned 64) e1 e (Gauss.box d.x d.y d.z) n zs sched W 0 1 = some r →
      ∃ W', Valid C dv W' ∧ DimsAre C W' 0 d ∧ DimsAre C W' 1 d ∧ (∀ l, InGrid C W' l → ValueIs C W' l (σ' l)) ∧
        ∀ scheds, K.benchPar C B base E e1 e d n zs sched scheds =
          if Gauss.differ E.f64 (K.heat B E.f64 0 d σ) (K.heat B E.f64 1 d σ') then
            some (.ok (W', .threw (.logicError "consistency check failed"))) else K.stepsPar C B base E e1 e d.x d.y d.z n zs 0 1 scheds W' := by
    intro sched r hr
    obtain ⟨W', c1, c2, c3, c4⟩ := P.values sched r hr
    have hd1 := (c3 1 d).2 w4
    have hgrid : ∀ l, InGrid C W' l → InGrid C W l := fun l ⟨d', m', q1, q2⟩ => ⟨d', m', (c3 _ _).1 q1, q2⟩
    have s2 := gauss_sum hL B E.f64 K c2 hd1 hd hm (fun l hl => c4 l (hgrid l hl)) (fun l _ _ h => n1 l h) _ hin 0
    rw [heat_eq] at s2
    refine ⟨W', c2, (c3 0 d).2 w3, hd1, fun l hl => c4 l (hgrid l hl), fun scheds => ?_⟩
    simp only [Gauss.benchPar, w1, s1, hr, c1, s2]
    rfl
  have steps : ∀ W', Valid C dv W' → DimsAre C W' 0 d → DimsAre C W' 1 d → (∀ l, InGrid C W' l → ValueIs C W' l (σ' l)) → _ :=
    fun W' g1 g2 g3 g4 => C64_gauss_steps (dv := dv) hL c e1 e he1 h1 he E B base hbase K d ex d.x d.y d.z hF hex 0 1 (by decide) W' g1 g2 g3 hd σ' g4
      (fun l _ _ h => n1 l h) n zs hsp scheds
  constructor
  · intro r hr
    cases hu : updatePar C B base E (K.functor E.f64) (.unsigned 64) e1 e (Gauss.box d.x d.y d.z) n zs sched W 0 1 with
    | none =>
      simp only [Gauss.benchPar, w1, s1, hu] at hr
      cases hr
    | some q =>
      obtain ⟨W', g1, g2, g3, g4, g5⟩ := next sched q hu
      rw [g5] at hr
      split
      · rename_i h
        rw [if_pos (show Gauss.differ E.f64 _ _ = true from h)] at hr
        exact ⟨W', (Option.some.inj hr).symm, g1, g2, g3, g4⟩
      · rename_i h
        rw [if_neg (show ¬ Gauss.differ E.f64 _ _ = true from h)] at hr
        obtain ⟨W2, q1, q2, q3, q4⟩ := (steps W' g1 g2 g3 g4).1 r hr
        exact ⟨W2, q1, q2, (q3 _ _).2 g2, (q3 _ _).2 g3, fun l ⟨d', m', p1, p2⟩ => q4 l ⟨d', m', (q3 _ _).1 p1, p2⟩⟩
  · obtain ⟨sched', q, hq⟩ := P.finishes sched
    obtain ⟨W', g1, g2, g3, g4, g5⟩ := next _ q hq
    obtain ⟨scheds', k1, k2, k3⟩ := (steps W' g1 g2 g3 g4).2
    refine ⟨sched', scheds', k1, k2, ?_⟩
    rw [g5]
    split
    · rfl
    · exact k3

/-! ### The hypotheses can be met -/
namespace GaussDemo
open Silver (dC dB base hL)

/-- 50 steps on QPX with vectors of 4 `double`s, on grids with 23 * 12 * 11 cells. -/
example : ∃ e1 e W out, e.impl.N = 4 ∧ gK.bench dC dB base FEnv.demo e1 e ⟨23, 12, 11⟩ 50 = .ok (W, out) ∧ Valid dC 0 W := by
  obtain ⟨e1, he1, hn1, e, he, hn⟩ := vecs
  have key := C62_gauss_bench (dv := 0) hL .qpx e1 e he1 hn1 he FEnv.demo dB base Gold.base4096 gK ⟨23, 12, 11⟩ ⟨32, 32, 32⟩ rfl
    ⟨_, rfl, rfl, by decide, rfl⟩ (by decide) (by decide) (by decide) (by decide) (by decide) (by decide) 50
  simp only at key
  split at key
  · obtain ⟨W, k1, k2, -⟩ := key
    exact ⟨e1, e, W, _, hn, k1, k2⟩
  · obtain ⟨W, k1, k2, -⟩ := key
    exact ⟨e1, e, W, _, hn, k1, k2⟩

theorem splits' : ∃ zs, Splits ⟨0, (23 : Nat), 2, (12 : Nat) - 2, 2, (11 : Nat) - 2⟩ 2 zs :=
  ⟨_, Splits.contiguous ⟨0, (23 : Nat), 2, (12 : Nat) - 2, 2, (11 : Nat) - 2⟩ 2 (fun i => if i = 0 then 2 else if i = 1 then 6 else 9) rfl rfl
    (by decide)⟩

/-- The same with two threads. -/
example : ∃ e1 e zs sched scheds, e.impl.N = 4 ∧ scheds.length = 3 ∧
    (gK.benchPar dC dB base FEnv.demo e1 e ⟨23, 12, 11⟩ 2 zs sched scheds).isSome = true := by
  obtain ⟨e1, he1, hn1, e, he, hn⟩ := vecs
  obtain ⟨zs, hz⟩ := splits'
  obtain ⟨s', ss', k1, -, k3⟩ := (C64_gauss_bench (dv := 0) hL .qpx e1 e he1 hn1 he FEnv.demo dB base Gold.base4096 gK ⟨23, 12, 11⟩ ⟨32, 32, 32⟩ rfl
    ⟨_, rfl, rfl, by decide, rfl⟩ (by decide) (by decide) (by decide) (by decide) (by decide) (by decide) 2 zs hz [0, 1] [[], [1, 0], []]).2
  exact ⟨e1, e, zs, _, ss', hn, k1, k3⟩

end GaussDemo

end LFA.GK
