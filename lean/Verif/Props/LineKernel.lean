import Verif.LineKernel
import Verif.Props.OmpKernel
import Verif.Props.Threads
import Verif.CudaProof

/-
  C67: functors which walk through grids by advancing the index of accessors compute what loops over plain 3D arrays compute, be it
  along rows or, by the threads of a CUDA kernel, along the z-axis.
-/
set_option linter.unusedSectionVars false
namespace LFA.Line
open Thr (Loc InGrid ValueIs InA valA inA_iff Ref Prog)
open GK (Pair Access Has Yields Box at' Pos off)

variable {V : Type} [DecidableEq V] {C : Cfg V} {dv : V}

/-! ### Vocabulary -/

/-- What the body does to the cell `(x, y, z)`, in terms of the values of all locations. -/
def Body.on (s o : Nat) (x y z : Int) : Body V → (Loc → V) → Loc → V
  | .done, σ => σ
  | .read new X Y Z r k c, σ => (c (σ ⟨if new then o else s, x + X, y + Y, z + Z, r, k⟩)).on s o x y z σ
  | .write r k v c, σ => c.on s o x y z fun l => if l = ⟨o, x, y, z, r, k⟩ then v else σ l

/-- Whatever values the body reads, all of its accesses are `inside`. -/
def Body.Inside (inside : Loc → Prop) (s o : Nat) (x y z : Int) : Body V → Prop
  | .done => True
  | .read new X Y Z r k c => inside ⟨if new then o else s, x + X, y + Y, z + Z, r, k⟩ ∧ ∀ v, (c v).Inside inside s o x y z
  | .write r k _ c => inside ⟨o, x, y, z, r, k⟩ ∧ c.Inside inside s o x y z

/-- In the new grid, the body reads from its own cell only. -/
def Body.Local : Body V → Prop
  | .done => True
  | .read new X Y Z _ _ c => (new = true → X = 0 ∧ Y = 0 ∧ Z = 0) ∧ ∀ v, (c v).Local
  | .write _ _ _ c => c.Local

theorem Body.on_congr {inside : Loc → Prop} {s o : Nat} {x y z : Int} (K : Body V) (hin : K.Inside inside s o x y z) {σ σ' : Loc → V}
    (h : ∀ l, inside l → σ l = σ' l) : ∀ l, inside l → K.on s o x y z σ l = K.on s o x y z σ' l := by
  induction K generalizing σ σ' with
  | done => exact h
  | read new X Y Z r k c ih =>
    intro l hl
    simp only [Body.on]
    rw [h _ hin.1]
    exact ih _ (hin.2 _) h l hl
  | write r k v c ih =>
    intro l hl
    refine ih hin.2 (fun l hl => ?_) l hl
    split
    · rfl
    · exact h l hl

theorem Body.on_frame {s o : Nat} {x y z : Int} (K : Body V) (σ : Loc → V) {l : Loc} (h : ¬ (l.s = o ∧ l.x = x ∧ l.y = y ∧ l.z = z)) :
    K.on s o x y z σ l = σ l := by
  induction K generalizing σ with
  | done => rfl
  | read new X Y Z r k c ih => exact ih _ σ
  | write r k v c ih =>
    refine (ih _).trans ?_
    rw [if_neg]
    rintro rfl
    exact h ⟨rfl, rfl, rfl, rfl⟩

theorem Body.on_local {s o : Nat} (hso : s ≠ o) {x y z : Int} (K : Body V) (hK : K.Local) {σ σ' : Loc → V}
    (h : ∀ l : Loc, (l.s = o → l.x = x ∧ l.y = y ∧ l.z = z) → σ l = σ' l) :
    ∀ l : Loc, (l.s = o → l.x = x ∧ l.y = y ∧ l.z = z) → K.on s o x y z σ l = K.on s o x y z σ' l := by
  induction K generalizing σ σ' with
  | done => exact h
  | read new X Y Z r k c ih =>
    intro l hl
    simp only [Body.on]
    rw [h]
    · exact ih _ (hK.2 _) h l hl
    · intro hs
      cases new with
      | false => exact absurd hs hso
      | true => obtain ⟨rfl, rfl, rfl⟩ := hK.1 rfl; simp
  | write r k v c ih =>
    intro l hl
    refine ih hK (fun l hl => ?_) l hl
    split
    · rfl
    · exact h l hl

/-- What the body does to all cells `P` contains, if it does not read other cells of the new grid. -/
def Body.apply (K : Body V) (s o : Nat) (P : Int → Int → Int → Prop) [∀ x y z, Decidable (P x y z)] (σ : Loc → V) : Loc → V := fun l =>
  if l.s = o ∧ P l.x l.y l.z then K.on s o l.x l.y l.z σ l else σ l

/-! ### Loops over rows -/

theorem read_at (hL : C.L.WF) {W : World V} {a : AWorld V} (hR : R C W a) {s : Nat} {e : Ext} {id : Nat} (hs : Has C W s e id)
    {x y z X Y Z : Int} {r k : Nat} (hin : InA C a ⟨s, x + X, y + Y, z + Z, r, k⟩) :
    ∃ m b, C.L[r]? = some m ∧ W.h.blk id = some b ∧
      b.read (addr C.L e (genIndex e x y z) X Y Z r m k) m.ty = .ok (valA dv a ⟨s, x + X, y + Y, z + Z, r, k⟩) := by
  obtain ⟨g, m, h1, h2, h3⟩ := hin
  obtain ⟨b, k1, k2⟩ := GK.read_ok (dv := dv) hL hR hs (p := ⟨X, Y, Z, r, k⟩) (x := x) (y := y) (z := z) ⟨g, m, h1, h2, h3⟩ h2
  exact ⟨m, b, h2, k1, k2⟩

theorem write_at (hL : C.L.WF) {W : World V} {a : AWorld V} (hR : R C W a) (hV : Valid C dv W) {o : Nat} {e : Ext} {id : Nat}
    (ho : Has C W o e id) {x y z : Int} {r k : Nat} (hin : InA C a ⟨o, x, y, z, r, k⟩) (v : V) :
    ∃ m b b' a', C.L[r]? = some m ∧ W.h.blk id = some b ∧ b.assign (addr C.L e (genIndex e x y z) 0 0 0 r m k) m.ty v = .ok b' ∧
      R C ⟨W.h.set id b', W.g⟩ a' ∧ Valid C dv ⟨W.h.set id b', W.g⟩ ∧ (∀ l, InA C a' l ↔ InA C a l) ∧
      ∀ l, InA C a l → valA dv a' l = if l = ⟨o, x, y, z, r, k⟩ then v else valA dv a l := by
  obtain ⟨g, m, h1, h2, h3⟩ := hin
  have hin' : InA C a (at' o ⟨0, 0, 0, r, k⟩ x y z) := by
    simp only [at', Int.add_zero]; exact ⟨g, m, h1, h2, h3⟩
  obtain ⟨b, b', a', k1, k2, k3, k4, k5, k6⟩ := GK.write_ok (dv := dv) hL hR ho (p := ⟨0, 0, 0, r, k⟩) hin' h2 v
  refine ⟨m, b, b', a', h2, k1, k2, k4, hV.next hL hR (by simp) ?_ k3, k5, ?_⟩
  · obtain ⟨g, m, q⟩ := hin'; exact ⟨g, m, q⟩
  · simpa only [at', Int.add_zero] using k6

theorem Body.run_ok (hL : C.L.WF) {A : Pair} {s o : Nat} {x y z : Int} (K : Body V) {W : World V} {a : AWorld V} (hR : R C W a)
    (hV : Valid C dv W) (hs : Has C W s A.es A.ids) (ho : Has C W o A.et A.idt) (hin : K.Inside (InA C a) s o x y z) :
    ∃ h' a', K.run C.L A (genIndex A.es x y z) (genIndex A.et x y z) W.h = .ok h' ∧ R C ⟨h', W.g⟩ a' ∧ Valid C dv ⟨h', W.g⟩ ∧
      (∀ l, InA C a' l ↔ InA C a l) ∧ ∀ l, InA C a l → valA dv a' l = K.on s o x y z (valA dv a) l := by
  induction K generalizing W a with
  | done => exact ⟨W.h, a, rfl, hR, hV, fun _ => .rfl, fun _ _ => rfl⟩
  | read new X Y Z r k c ih =>
    have : ∃ m b, C.L[r]? = some m ∧ W.h.blk (if new then A.idt else A.ids) = some b ∧
        b.read (addr C.L (if new then A.et else A.es) (if new then genIndex A.et x y z else genIndex A.es x y z) X Y Z r m k) m.ty =
          .ok (valA dv a ⟨if new then o else s, x + X, y + Y, z + Z, r, k⟩) := by
      cases new with
      | false => exact read_at hL hR hs hin.1
      | true => exact read_at hL hR ho hin.1
    obtain ⟨m, b, h1, h2, h3⟩ := this
    obtain ⟨h', a', k1, k2⟩ := ih _ hR hV hs ho (hin.2 (valA dv a ⟨if new then o else s, x + X, y + Y, z + Z, r, k⟩))
    refine ⟨h', a', ?_, k2⟩
    simp only [Body.run, h1, h2, h3, k1]
  | write r k v c ih =>
    obtain ⟨m, b, b', a1, h1, h2, h3, h4, h5, h6, h7⟩ := write_at hL hR hV ho hin.1 v
    have hin' : c.Inside (InA C a1) s o x y z := by
      have : InA C a1 = InA C a := funext fun l => propext (h6 l)
      rw [this]; exact hin.2
    obtain ⟨h', a', k1, k2, k3, k4, k5⟩ := ih h4 h5 hs ho hin'
    refine ⟨h', a', ?_, k2, k3, fun l => (k4 l).trans (h6 l), fun l hl => ?_⟩
    · simp only [Body.run, h1, h2, h3, k1]
    · rw [k5 l ((h6 l).2 hl)]
      exact c.on_congr hin' (fun l hl => h7 l ((h6 l).1 hl)) l ((h6 l).2 hl)

/-- Consecutive cells. -/
def Body.cells (K : Body V) (s o : Nat) (ps : List (Int × Int × Int)) (σ : Loc → V) : Loc → V :=
  ps.foldl (fun σ p => K.on s o p.1 p.2.1 p.2.2 σ) σ

theorem Body.cells_congr {inside : Loc → Prop} {s o : Nat} (K : Body V) (ps : List (Int × Int × Int))
    (hin : ∀ p ∈ ps, K.Inside inside s o p.1 p.2.1 p.2.2) {σ σ' : Loc → V} (h : ∀ l, inside l → σ l = σ' l) :
    ∀ l, inside l → K.cells s o ps σ l = K.cells s o ps σ' l := by
  induction ps generalizing σ σ' with
  | nil => exact h
  | cons p ps ih => exact ih (fun q hq => hin q (List.mem_cons_of_mem _ hq)) (K.on_congr (hin p List.mem_cons_self) h)

theorem genIndex_next (e : Ext) (x y z : Int) : genIndex e x y z + 1 = genIndex e (x + 1) y z := by unfold genIndex; ring

theorem iota_succ (x : Int) (n : Nat) : Peel.iota x (n + 1) = x :: Peel.iota (x + 1) n := by
  simp only [Peel.iota, List.range_succ_eq_map, List.map_cons, List.map_map]
  congr 1
  · simp
  · refine List.map_congr_left fun i _ => ?_
    simp; omega

theorem Body.row_ok (hL : C.L.WF) {A : Pair} {s o : Nat} {y z : Int} (K : Body V) (n : Nat) {x : Int} {W : World V} {a : AWorld V} (hR : R C W a)
    (hV : Valid C dv W) (hs : Has C W s A.es A.ids) (ho : Has C W o A.et A.idt)
    (hin : ∀ x' ∈ Peel.iota x n, K.Inside (InA C a) s o x' y z) :
    ∃ h' a', K.row C.L A n (genIndex A.es x y z) (genIndex A.et x y z) W.h = .ok h' ∧ R C ⟨h', W.g⟩ a' ∧ Valid C dv ⟨h', W.g⟩ ∧
      (∀ l, InA C a' l ↔ InA C a l) ∧
      ∀ l, InA C a l → valA dv a' l = K.cells s o ((Peel.iota x n).map fun x => (x, y, z)) (valA dv a) l := by
  induction n generalizing x W a with
  | zero => exact ⟨W.h, a, rfl, hR, hV, fun _ => .rfl, fun _ _ => rfl⟩
  | succ n ih =>
    obtain ⟨h1, a1, k1, k2, k3, k4, k5⟩ := K.run_ok hL hR hV hs ho (hin x (by rw [GK.mem_iota]; omega))
    have e1 : InA C a1 = InA C a := funext fun l => propext (k4 l)
    have hin1 : ∀ x' ∈ Peel.iota (x + 1) n, K.Inside (InA C a1) s o x' y z := fun x' hx => by
      rw [e1]
      refine hin x' ?_
      rw [GK.mem_iota] at hx ⊢
      omega
    obtain ⟨h2, a2, q1, q2, q3, q4, q5⟩ := ih (x := x + 1) k2 k3 hs ho hin1
    refine ⟨h2, a2, ?_, q2, q3, fun l => (q4 l).trans (k4 l), fun l hl => ?_⟩
    · simp only [Body.row, k1, genIndex_next]; exact q1
    · rw [q5 l ((k4 l).2 hl)]
      rw [iota_succ]
      refine K.cells_congr (inside := InA C a1) _ ?_ (fun l hl => k5 l ((k4 l).1 hl)) l ((k4 l).2 hl)
      simp only [List.mem_map, forall_exists_index, and_imp]
      rintro p x' hx rfl
      exact hin1 x' hx

theorem genIndex_same {e e' : Ext} (hx : e.x = e'.x) (hy : e.y = e'.y) (x y z : Int) : genIndex e x y z = genIndex e' x y z := by
  unfold genIndex; rw [hx, hy]

theorem Body.cells_append (K : Body V) (s o : Nat) (ps qs : List (Int × Int × Int)) (σ : Loc → V) :
    K.cells s o (ps ++ qs) σ = K.cells s o qs (K.cells s o ps σ) := List.foldl_append

theorem Body.sweep_ok (hL : C.L.WF) {A : Pair} (hx : A.es.x = A.et.x) (hy : A.es.y = A.et.y) {s o : Nat} {x0 x1 : Int} (K : Body V)
    (rs : List (Int × Int)) {W : World V} {a : AWorld V} (hR : R C W a) (hV : Valid C dv W) (hs : Has C W s A.es A.ids)
    (ho : Has C W o A.et A.idt) (hin : ∀ r ∈ rs, ∀ x, x0 ≤ x → x < x1 → K.Inside (InA C a) s o x r.1 r.2) :
    ∃ h' a', K.sweep C.L A x0 x1 rs W.h = .ok h' ∧ R C ⟨h', W.g⟩ a' ∧ Valid C dv ⟨h', W.g⟩ ∧
      (∀ l, InA C a' l ↔ InA C a l) ∧
      ∀ l, InA C a l → valA dv a' l =
        K.cells s o (rs.flatMap fun r => (Peel.iota x0 (x1 - x0).toNat).map fun x => (x, r.1, r.2)) (valA dv a) l := by
  induction rs generalizing W a with
  | nil => exact ⟨W.h, a, rfl, hR, hV, fun _ => .rfl, fun _ _ => rfl⟩
  | cons r rs ih =>
    obtain ⟨y, z⟩ := r
    have hmem : ∀ x ∈ Peel.iota x0 (x1 - x0).toNat, x0 ≤ x ∧ x < x1 := fun x hx => by rw [GK.mem_iota] at hx; omega
    obtain ⟨h1, a1, k1, k2, k3, k4, k5⟩ := K.row_ok hL (x1 - x0).toNat hR hV hs ho (x := x0) (y := y) (z := z) (fun x hx =>
      hin (y, z) List.mem_cons_self x (hmem x hx).1 (hmem x hx).2)
    have e1 : InA C a1 = InA C a := funext fun l => propext (k4 l)
    have hin1 : ∀ r ∈ rs, ∀ x, x0 ≤ x → x < x1 → K.Inside (InA C a1) s o x r.1 r.2 := fun r hr => by
      rw [e1]; exact hin r (List.mem_cons_of_mem _ hr)
    obtain ⟨h2, a2, q1, q2, q3, q4, q5⟩ := ih k2 k3 hs ho hin1
    refine ⟨h2, a2, ?_, q2, q3, fun l => (q4 l).trans (k4 l), fun l hl => ?_⟩
    · have e2 : genIndex A.es x1 y z - genIndex A.es x0 y z = x1 - x0 := by unfold genIndex; ring
      rw [← genIndex_same hx hy] at k1
      simp only [Body.sweep, Body.line, e2, k1]
      exact q1
    · rw [q5 l ((k4 l).2 hl), List.flatMap_cons, Body.cells_append]
      refine K.cells_congr (inside := InA C a1) _ ?_ (fun l hl => k5 l ((k4 l).1 hl)) l ((k4 l).2 hl)
      simp only [List.mem_flatMap, List.mem_map, forall_exists_index, and_imp]
      rintro p r hr x hx rfl
      exact hin1 r hr x (hmem x hx).1 (hmem x hx).2

theorem dual_eq {g g' : Grid} {ds dt es et : Ext} (hes : selectSizes C.tr ds = .ok es) (het : selectSizes C.tr dt = .ok et)
    (hsym : C.asym = true ∨ ds = dt) (h1 : g.dim = ds) (h2 : g'.dim = dt) {α : Type} (f : Ext → Ext → Heap V → Res (Heap V) α) (h : Heap V) :
    g.dualCallback C g' f h = f es et h := by
  subst h1 h2
  simp only [Grid.dualCallback, hes, het]
  by_cases ha : C.asym = true
  · rw [if_pos ha]
  · rw [if_neg ha]
    have := hsym.resolve_left ha
    rw [this] at hes
    rw [hes] at het; cases het
    simp only [this, ne_eq, not_true_eq_false, or_self, if_false]

theorem rows_ok (hL : C.L.WF) {ds dt es et : Ext} (hes : selectSizes C.tr ds = .ok es) (het : selectSizes C.tr dt = .ok et)
    (hsym : C.asym = true ∨ ds = dt) (hx : es.x = et.x) (hy : es.y = et.y) (K : Body V) (b : Box) {W : World V} (hV : Valid C dv W) {s o : Nat}
    (hds : DimsAre C W s ds) (hdt : DimsAre C W o dt) (hns : ds ≠ ⟨0, 0, 0⟩) (hnt : dt ≠ ⟨0, 0, 0⟩)
    {σ : Loc → V} (hσ : ∀ l, InGrid C W l → ValueIs C W l (σ l)) (hin : ∀ x y z, b.Has x y z → K.Inside (InGrid C W) s o x y z) :
    Yields C dv W (K.cells s o b.cells σ) (updateRows C K b W s o) := by
  obtain ⟨a, hR⟩ := hV.refines hL
  obtain ⟨ids, gs, i1, i2, i3, i4⟩ := GK.has_of_dims hR hds hns hes
  obtain ⟨idt, gt, j1, j2, j3, j4⟩ := GK.has_of_dims hR hdt hnt het
  have e1 : InA C a = InGrid C W := funext fun l => propext (inA_iff hR l)
  have hva : ∀ l, InA C a l → valA dv a l = σ l := fun l hl =>
    GK.valueIs_unique (GK.valA_valueIs hL hR hl) (hσ l ((inA_iff hR l).1 hl))
  obtain ⟨h', a', k1, k2, k3, k4, k5⟩ := K.sweep_ok hL (A := ⟨es, et, ids, idt⟩) hx hy (x0 := b.x0) (x1 := b.x1) b.rows hR hV i4 j4 (by
    rintro ⟨y, z⟩ hr x h1 h2
    rw [e1]
    exact hin x y z (by have := GK.Box.mem_rows.1 hr; exact ⟨h1, h2, this⟩))
  refine ⟨⟨h', W.g⟩, ?_, k3, GK.dimsAre_same rfl, fun l hl => ?_⟩
  · simp only [updateRows, World.withG, i1, j1, dual_eq hes het hsym i2 j2, i3, j3, Option.getD_some, k1, World.ofH]
  · have hl' := (inA_iff hR l).2 hl
    have := GK.valA_valueIs (dv := dv) hL k2 ((k4 l).2 hl')
    rw [k5 l hl'] at this
    have hc : K.cells s o b.cells (valA dv a) l = K.cells s o b.cells σ l := by
      refine K.cells_congr (inside := InA C a) _ (fun p hp => ?_) hva l hl'
      rw [e1]
      exact hin _ _ _ (GK.Box.mem_cells.1 hp)
    rw [← hc]
    exact this

/-- If the body reads from its own cell of the new grid only, then the order of the cells does not matter. -/
theorem Body.cells_apply {s o : Nat} (hso : s ≠ o) (K : Body V) (hK : K.Local) (ps : List (Int × Int × Int)) (hps : ps.Nodup) (σ : Loc → V)
    (l : Loc) : K.cells s o ps σ l = if l.s = o ∧ (l.x, l.y, l.z) ∈ ps then K.on s o l.x l.y l.z σ l else σ l := by
  induction ps generalizing σ with
  | nil => simp [Body.cells]
  | cons p ps ih =>
    obtain ⟨x, y, z⟩ := p
    rw [List.nodup_cons] at hps
    have e : K.cells s o ((x, y, z) :: ps) σ = K.cells s o ps (K.on s o x y z σ) := rfl
    rw [e, ih hps.2]
    by_cases hl : l.s = o ∧ (l.x, l.y, l.z) ∈ ps
    · rw [if_pos hl, if_pos ⟨hl.1, List.mem_cons_of_mem _ hl.2⟩]
      refine K.on_local hso hK (fun l' hl' => K.on_frame σ ?_) l (fun _ => ⟨rfl, rfl, rfl⟩)
      rintro ⟨q1, rfl, rfl, rfl⟩
      obtain ⟨e1, e2, e3⟩ := hl' q1
      rw [e1, e2, e3] at hps
      exact hps.1 hl.2
    · rw [if_neg hl]
      by_cases hp : l.s = o ∧ (l.x, l.y, l.z) = (x, y, z)
      · have hp2 := hp.2
        simp only [Prod.mk.injEq] at hp2
        obtain ⟨rfl, rfl, rfl⟩ := hp2
        rw [if_pos ⟨hp.1, List.mem_cons_self⟩]
      · rw [if_neg, K.on_frame]
        · rintro ⟨q1, rfl, rfl, rfl⟩; exact hp ⟨q1, rfl⟩
        · rintro ⟨q1, q2⟩
          rcases List.mem_cons.1 q2 with q2 | q2
          · exact hp ⟨q1, q2⟩
          · exact hl ⟨q1, q2⟩

/-! ### Threads -/

/-- The body as a functor of Verif/Threads.lean; the index of the accessor is that of `(x, y, z)`. -/
def Body.prog (s o : Nat) (x y z : Int) (p : Prog V Unit) : Body V → Prog V Unit
  | .done => .tau p
  | .read new X Y Z r k c => .peek ⟨if new then o else s, x, y, z, X, Y, Z, r, k⟩ fun v => (c v).prog s o x y z p
  | .write r k v c => .poke ⟨o, x, y, z, 0, 0, 0, r, k⟩ v (c.prog s o x y z p)

/-- `n` iterations of the loop. -/
def Kernel.prog (K : Kernel V) (s o : Nat) (x y : Int) : Nat → Int → Prog V Unit
  | 0, _ => .ret ()
  | n + 1, z => .tau (K.body.prog s o x y z (K.prog s o x y n (z + 1)))

theorem alone_body (s o : Nat) (x y z : Int) (p : Prog V Unit) (K : Body V) (σ : Loc → V) :
    Thr.alone σ (K.prog s o x y z p) = Thr.alone (K.on s o x y z σ) p := by
  induction K generalizing σ with
  | done => rfl
  | read new X Y Z r k c ih => simp only [Body.prog, Thr.alone, Ref.loc, ih, Body.on]
  | write r k v c ih => simp only [Body.prog, Thr.alone, Ref.loc, Int.add_zero, ih, Body.on]

/-- The cells of a line. -/
def lineCells (x y : Int) (n : Nat) (z : Int) : List (Int × Int × Int) := (Peel.iota z n).map fun z => (x, y, z)

theorem alone_prog (K : Kernel V) (s o : Nat) (x y : Int) (n : Nat) (z : Int) (σ : Loc → V) :
    (Thr.alone σ (K.prog s o x y n z)).2 = K.body.cells s o (lineCells x y n z) σ := by
  induction n generalizing z σ with
  | zero => rfl
  | succ n ih =>
    simp only [Kernel.prog, Thr.alone, alone_body, ih, lineCells, iota_succ, List.map_cons]
    rfl

theorem respects_body {inside : Loc → Prop} {own : Loc → Option Nat} {i : Nat} {s o : Nat} {x y z : Int} {p : Prog V Unit}
    (hp : Thr.Respects inside own i p) (hs : ∀ l : Loc, l.s = s → own l = none) (ho : ∀ r k, own ⟨o, x, y, z, r, k⟩ = some i) (K : Body V)
    (hK : K.Local) (hin : K.Inside inside s o x y z) : Thr.Respects inside own i (K.prog s o x y z p) := by
  induction K with
  | done => exact hp
  | read new X Y Z r k c ih =>
    refine ⟨hin.1, ?_, fun v => ih v (hK.2 v) (hin.2 v)⟩
    cases new with
    | false => exact .inl (hs _ rfl)
    | true =>
      obtain ⟨rfl, rfl, rfl⟩ := hK.1 rfl
      right
      simp only [Ref.loc, Int.add_zero]
      exact ho r k
  | write r k v c ih =>
    refine ⟨?_, ?_, ih hK hin.2⟩
    · simpa [Ref.loc] using hin.1
    · simpa [Ref.loc] using ho r k

theorem respects_prog {inside : Loc → Prop} {own : Loc → Option Nat} {i : Nat} {s o : Nat} {x y : Int} (K : Kernel V) (hK : K.body.Local)
    (n : Nat) (z : Int) (hs : ∀ l : Loc, l.s = s → own l = none)
    (ho : ∀ z', z ≤ z' → z' < z + n → ∀ r k, own ⟨o, x, y, z', r, k⟩ = some i)
    (hin : ∀ z', z ≤ z' → z' < z + n → K.body.Inside inside s o x y z') : Thr.Respects inside own i (K.prog s o x y n z) := by
  induction n generalizing z with
  | zero => exact trivial
  | succ n ih =>
    exact respects_body (ih (z + 1) (fun z' h1 h2 => ho z' (by omega) (by omega)) (fun z' h1 h2 => hin z' (by omega) (by omega))) hs
      (ho z (by omega) (by omega)) _ hK (hin z (by omega) (by omega))

/-- The thread is where the functor is. -/
structure Follows (C : Cfg V) (K : Kernel V) (A : Pair) (s o : Nat) (x y : Int) (t : Walker V) (p : Prog V Unit) : Prop where
  index : t.z < K.endZ → t.i = genIndex A.es x y t.z ∧ t.j = genIndex A.et x y t.z
  started : t.code.isSome = true → t.z < K.endZ
  body : ∀ z, t.z ≤ z → z < K.endZ → K.body.Inside (fun l => l.r < C.L.length) s o x y z
  code : ∀ c, t.code = some c → c.Inside (fun l => l.r < C.L.length) s o x y t.z
  prog : p = match t.code with
    | none => K.prog s o x y (K.endZ - t.z).toNat t.z
    | some c => c.prog s o x y t.z (K.prog s o x y (K.endZ - (t.z + 1)).toNat (t.z + 1))

theorem next_plane {e e' : Ext} (hx : e.x = e'.x) (x y z : Int) : genIndex e' x y z + (e.x : Int) * e'.y = genIndex e' x y (z + 1) := by
  unfold genIndex; rw [hx]; ring

theorem follows_step {K : Kernel V} (hK : K.byRef = true) {A : Pair} (hx : A.es.x = A.et.x) {s o : Nat} {x y : Int} {t : Walker V}
    {p p' : Prog V Unit} {W W' : World V} (hs : Has C W s A.es A.ids) (ho : Has C W o A.et A.idt) (h : Follows C K A s o x y t p)
    (ha : Thr.advance C W p = .ok (W', p')) :
    ∃ t', K.step C.L A t W.h = .ok (t', W'.h) ∧ W'.g = W.g ∧ Follows C K A s o x y t' p' := by
  obtain ⟨h1, h2, h4, h5, h3⟩ := h
  obtain ⟨z, i, j, code⟩ := t
  simp only at h1 h2 h3 h4 h5
  cases code with
  | none =>
    simp only at h3
    by_cases hz : z < K.endZ
    · obtain ⟨n, hn⟩ : ∃ n, (K.endZ - z).toNat = n + 1 := ⟨(K.endZ - z).toNat - 1, by omega⟩
      rw [hn] at h3
      subst h3
      simp only [Kernel.prog, Thr.advance, Except.ok.injEq, Prod.mk.injEq] at ha
      obtain ⟨rfl, rfl⟩ := ha
      refine ⟨⟨z, i, j, some K.body⟩, by simp only [Kernel.step, if_pos hz], rfl, h1, fun _ => hz, h4, ?_, ?_⟩
      · rintro _ ⟨⟩; exact h4 z (le_refl _) hz
      simp only
      rw [show (K.endZ - (z + 1)).toNat = n by omega]
    · rw [show (K.endZ - z).toNat = 0 by omega] at h3
      subst h3
      simp only [Kernel.prog, Thr.advance, Except.ok.injEq, Prod.mk.injEq] at ha
      obtain ⟨rfl, rfl⟩ := ha
      refine ⟨⟨z, i, j, none⟩, by simp only [Kernel.step, if_neg hz], rfl, h1, h2, h4, h5, ?_⟩
      simp only
      rw [show (K.endZ - z).toNat = 0 by omega]; rfl
  | some c =>
    have hz := h2 rfl
    obtain ⟨e1, e2⟩ := h1 hz
    simp only at h3
    subst h3
    cases c with
    | done =>
      simp only [Body.prog, Thr.advance, Except.ok.injEq, Prod.mk.injEq] at ha
      obtain ⟨rfl, rfl⟩ := ha
      refine ⟨_, rfl, rfl, fun _ => ⟨?_, ?_⟩, fun h => (nomatch h), fun z' h => h4 z' (by have : z + 1 ≤ z' := h; omega), fun _ h => (nomatch h), rfl⟩
      · rw [e1]; exact next_plane rfl x y z
      · rw [e2]; exact next_plane hx x y z
    | read new X Y Z r k c =>
      obtain ⟨gs, s1, s2, s3⟩ := hs
      obtain ⟨go, o1, o2, o3⟩ := ho
      have key : ∀ (q : Nat) (g : Grid) (e : Ext) (id : Nat) (idx : Int), W.g q = some g → selectSizes C.tr g.dim = .ok e → g.data = some id →
          idx = genIndex e x y z →
          Thr.advance C W (.peek ⟨q, x, y, z, X, Y, Z, r, k⟩ fun v => (c v).prog s o x y z (K.prog s o x y (K.endZ - (z + 1)).toNat (z + 1))) =
            .ok (W', p') →
          ∃ m b v, C.L[r]? = some m ∧ W.h.blk id = some b ∧ b.read (addr C.L e idx X Y Z r m k) m.ty = .ok v ∧ W' = W ∧
            p' = (c v).prog s o x y z (K.prog s o x y (K.endZ - (z + 1)).toNat (z + 1)) := by
        intro q g e id idx g1 g2 g3 hidx ha
        subst hidx
        simp only [Thr.advance, World.step, World.withG, g1, Grid.callbackRead, g2, g3] at ha
        cases hb : W.h.blk id with
        | none => rw [hb] at ha; simp [World.ofH] at ha
        | some b =>
          rw [hb] at ha
          simp only [peekFunctor] at ha
          cases hm : C.L[r]? with
          | none => rw [hm] at ha; simp [World.ofH] at ha
          | some m =>
            rw [hm] at ha
            simp only at ha
            cases hr : b.read (((accAt e (genIndex e x y z)).shift X Y Z).userRef C.L r m k) m.ty with
            | error u => rw [hr] at ha; simp [Except.map, World.ofH] at ha
            | ok v =>
              rw [hr] at ha
              simp only [Except.map, World.ofH, Except.ok.injEq, Prod.mk.injEq] at ha
              exact ⟨m, b, v, rfl, rfl, hr, ha.1.symm, ha.2.symm⟩
      have : ∃ m b v, C.L[r]? = some m ∧ W.h.blk (if new then A.idt else A.ids) = some b ∧
          b.read (addr C.L (if new then A.et else A.es) (K.index ⟨z, i, j, some (.read new X Y Z r k c)⟩ new) X Y Z r m k) m.ty = .ok v ∧
            W' = W ∧ p' = (c v).prog s o x y z (K.prog s o x y (K.endZ - (z + 1)).toNat (z + 1)) := by
        cases new with
        | false => exact key s gs A.es A.ids _ s1 s2 s3 (by simp [Kernel.index, hK, e1]) ha
        | true => exact key o go A.et A.idt _ o1 o2 o3 (by simp [Kernel.index, hK, e2]) ha
      obtain ⟨m, b, v, q1, q2, q3, rfl, rfl⟩ := this
      refine ⟨⟨z, i, j, some (c v)⟩, ?_, rfl, h1, fun _ => hz, h4, ?_, rfl⟩
      rotate_left
      · rintro _ ⟨⟩; exact (h5 _ rfl).2 v
      simp only [Kernel.step, q1, q2, q3]
    | write r k v c =>
      obtain ⟨go, o1, o2, o3⟩ := ho
      simp only [Body.prog, Thr.advance, World.step, World.withG, o1, Grid.callbackMut, o2, o3, onBuffer] at ha
      cases hb : W.h.blk A.idt with
      | none => rw [hb] at ha; simp [World.ofH] at ha
      | some b =>
        rw [hb] at ha
        simp only [pokeFunctor] at ha
        cases hm : C.L[r]? with
        | none =>
          have : r < C.L.length := (h5 _ rfl).1
          simp only [List.getElem?_eq_none_iff] at hm
          omega
        | some m =>
          rw [hm] at ha
          simp only at ha
          cases hr : b.assign (((accAt A.et (genIndex A.et x y z)).shift 0 0 0).userRef C.L r m k) m.ty v with
          | error u => rw [hr] at ha; simp [World.ofH] at ha
          | ok b' =>
            rw [hr] at ha
            simp only [World.ofH, Except.ok.injEq, Prod.mk.injEq] at ha
            obtain ⟨rfl, rfl⟩ := ha
            refine ⟨⟨z, i, j, some c⟩, ?_, rfl, h1, fun _ => hz, h4, ?_, rfl⟩
            rotate_left
            · rintro _ ⟨⟩; exact (h5 _ rfl).2
            simp only [Kernel.step, hm, hb, Kernel.index, hK, if_true, e2]
            unfold addr
            rw [hr]

theorem exec_follows {K : Kernel V} (hK : K.byRef = true) {A : Pair} (hx : A.es.x = A.et.x) {s o : Nat} {x y : Nat → Int} (sched : List Nat)
    {W W' : World V} (hs : Has C W s A.es A.ids) (ho : Has C W o A.et A.idt) {t : Nat → Walker V} {T T' : Nat → Prog V Unit}
    (h : ∀ i, Follows C K A s o (x i) (y i) (t i) (T i)) (he : Thr.exec C W T sched = .ok (W', T')) :
    ∃ t', K.exec C.L A sched t W.h = .ok (t', W'.h) ∧ W'.g = W.g ∧ ∀ i, Follows C K A s o (x i) (y i) (t' i) (T' i) := by
  induction sched generalizing W t T with
  | nil =>
    simp only [Thr.exec, Except.ok.injEq, Prod.mk.injEq] at he
    obtain ⟨rfl, rfl⟩ := he
    exact ⟨t, rfl, rfl, h⟩
  | cons i sched ih =>
    simp only [Thr.exec] at he
    cases ha : Thr.advance C W (T i) with
    | error u => rw [ha] at he; simp at he
    | ok q =>
      obtain ⟨W1, p1⟩ := q
      rw [ha] at he
      obtain ⟨t1, k1, k2, k3⟩ := follows_step hK hx hs ho (h i) ha
      have hs1 : Has C W1 s A.es A.ids := by obtain ⟨g, q1, q2⟩ := hs; exact ⟨g, by rw [k2]; exact q1, q2⟩
      have ho1 : Has C W1 o A.et A.idt := by obtain ⟨g, q1, q2⟩ := ho; exact ⟨g, by rw [k2]; exact q1, q2⟩
      obtain ⟨t', m1, m2, m3⟩ := ih hs1 ho1 (t := World.upd t i t1) (by
        intro j
        by_cases hj : j = i
        · subst hj; rw [upd_self, upd_self]; exact k3
        · rw [upd_ne _ _ hj, upd_ne _ _ hj]; exact h j) he
      refine ⟨t', ?_, m2.trans k2, m3⟩
      simp only [Kernel.exec, k1, m1]

theorem cellList_plane (nx ny : Nat) : cellList ⟨nx, ny, 1⟩ = (List.range (ny * nx)).map fun i => (i % nx, i / nx, 0) := by
  have h1 : cellList ⟨nx, ny, 1⟩ = (List.range ny).flatMap fun y => (List.range nx).map fun x => (x, y, 0) := by
    simp [cellList, List.range_succ]
  rw [h1]
  clear h1
  induction ny with
  | zero => simp
  | succ n ih =>
    rw [List.range_succ, List.flatMap_append, ih, Nat.succ_mul, List.range_add, List.map_append, List.map_map]
    congr 1
    simp only [List.flatMap_cons, List.flatMap_nil, List.append_nil]
    refine List.map_congr_left fun x hx => ?_
    have hx := List.mem_range.1 hx
    have hp : 0 < nx := by omega
    simp only [Function.comp, Prod.mk.injEq, and_true]
    rw [Nat.add_comm (n * nx) x]
    exact ⟨by rw [Nat.add_mul_mod_self_right, Nat.mod_eq_of_lt hx], by rw [Nat.add_mul_div_right _ _ hp, Nat.div_eq_of_lt hx, Nat.zero_add]⟩

theorem thread_at {g b : Dim3} (hl : Launchable g b = true) (hz : g.z * b.z = 1) (hx : g.x * b.x ≤ 2 ^ 32) (hy : g.y * b.y ≤ 2 ^ 32) :
    (threads g b).length = g.y * b.y * (g.x * b.x) ∧
      ∀ i t, (threads g b)[i]? = some t → tidX b t = i % (g.x * b.x) ∧ tidY b t = i / (g.x * b.x) := by
  have h := threads_coords g b hl hx hy (by omega)
  rw [hz, cellList_plane] at h
  refine ⟨by simpa using congrArg List.length h, fun i t ht => ?_⟩
  have h2 := congrArg (fun l => l[i]?) h
  simp only [List.getElem?_map, ht, Option.map_some] at h2
  have hi : i < g.y * b.y * (g.x * b.x) := by
    have := (List.getElem?_eq_some_iff.1 ht).1
    have := congrArg List.length h
    simp only [List.length_map, List.length_range] at this
    omega
  rw [List.getElem?_range hi] at h2
  simp only [Option.map_some, coords, Option.some.injEq, Prod.mk.injEq] at h2
  exact ⟨h2.1, h2.2.1⟩

/-- Which thread processes a cell of the new grid. -/
def owner (o nx ny : Nat) (z0 z1 : Int) (l : Loc) : Option Nat :=
  if l.s = o ∧ 2 ≤ l.x ∧ l.x < 2 + nx ∧ 2 ≤ l.y ∧ l.y < 2 + ny ∧ z0 ≤ l.z ∧ l.z < z1 then
    some ((l.y - 2).toNat * nx + (l.x - 2).toNat) else none

theorem owner_self {o nx ny : Nat} {z0 z1 z : Int} {i r k : Nat} (hi : i < ny * nx) (hz : z0 ≤ z ∧ z < z1) :
    owner o nx ny z0 z1 ⟨o, (i % nx : Nat) + 2, (i / nx : Nat) + 2, z, r, k⟩ = some i := by
  have hp : 0 < nx := by
    rcases Nat.eq_zero_or_pos nx with h | h
    · subst h; simp at hi
    · exact h
  have h1 := Nat.mod_lt i hp
  have h2 : i / nx < ny := Nat.div_lt_of_lt_mul (by rwa [Nat.mul_comm])
  have h3 : (0 : Int) ≤ (i / nx : Nat) := Int.natCast_nonneg _
  rw [owner, if_pos ⟨rfl, by simp only; omega, by simp only; omega, by simp only; omega, by simp only; omega, hz⟩]
  simp only [Option.some.injEq]
  rw [show ((i / nx : Nat) + 2 - 2 : Int).toNat = i / nx by omega, show ((i % nx : Nat) + 2 - 2 : Int).toNat = i % nx by omega, Nat.mul_comm]
  exact Nat.div_add_mod i nx

theorem owner_some {o nx ny : Nat} {z0 z1 : Int} {l : Loc} {i : Nat} (h : owner o nx ny z0 z1 l = some i) :
    i < ny * nx ∧ l.s = o ∧ l.x = (i % nx : Nat) + 2 ∧ l.y = (i / nx : Nat) + 2 ∧ z0 ≤ l.z ∧ l.z < z1 := by
  unfold owner at h
  split at h
  · rename_i hc
    obtain ⟨c1, c2, c3, c4, c5, c6⟩ := hc
    obtain ⟨x, hx⟩ := Int.eq_ofNat_of_zero_le (show 0 ≤ l.x - 2 by omega)
    obtain ⟨y, hy⟩ := Int.eq_ofNat_of_zero_le (show 0 ≤ l.y - 2 by omega)
    rw [hx, hy] at h
    simp only [Int.toNat_natCast, Option.some.injEq] at h
    have hxn : x < nx := by omega
    have hp : 0 < nx := by omega
    have hyn : y < ny := by omega
    subst h
    rw [Nat.add_comm, Nat.add_mul_mod_self_right, Nat.mod_eq_of_lt hxn, Nat.add_mul_div_right _ _ hp, Nat.div_eq_of_lt hxn]
    refine ⟨?_, c1, by omega, by omega, c6⟩
    calc x + y * nx < nx + y * nx := by omega
      _ = (y + 1) * nx := by rw [Nat.succ_mul]; omega
      _ ≤ ny * nx := Nat.mul_le_mul_right _ hyn
  · simp at h

/-- All there is to know about a launch: the threads as functors. -/
def progs (K : Kernel V) (s o nx ny : Nat) (i : Nat) : Prog V Unit :=
  if i < ny * nx then K.prog s o ((i % nx : Nat) + 2) ((i / nx : Nat) + 2) (K.endZ - K.startZ).toNat K.startZ else .ret ()

/-- The cells which the threads of a launch process. -/
def Covers (K : Kernel V) (nx ny : Nat) (x y z : Int) : Prop :=
  2 ≤ x ∧ x < 2 + nx ∧ 2 ≤ y ∧ y < 2 + ny ∧ K.startZ ≤ z ∧ z < K.endZ

instance (K : Kernel V) (nx ny : Nat) (x y z : Int) : Decidable (Covers K nx ny x y z) := by unfold Covers; infer_instance

theorem covers_thread {K : Kernel V} {nx ny i : Nat} (hi : i < ny * nx) {z : Int} (h1 : K.startZ ≤ z) (h2 : z < K.endZ) :
    Covers K nx ny ((i % nx : Nat) + 2) ((i / nx : Nat) + 2) z := by
  have hp : 0 < nx := by
    rcases Nat.eq_zero_or_pos nx with h | h
    · subst h; simp at hi
    · exact h
  have := Nat.mod_lt i hp
  have : i / nx < ny := Nat.div_lt_of_lt_mul (by rwa [Nat.mul_comm])
  have : (0 : Int) ≤ (i / nx : Nat) := Int.natCast_nonneg _
  exact ⟨by omega, by omega, by omega, by omega, h1, h2⟩

theorem Body.Inside.imp {P Q : Loc → Prop} (h : ∀ l, P l → Q l) {s o : Nat} {x y z : Int} {K : Body V} (hK : K.Inside P s o x y z) :
    K.Inside Q s o x y z := by
  induction K with
  | done => trivial
  | read new X Y Z r k c ih => exact ⟨h _ hK.1, fun v => ih v (hK.2 v)⟩
  | write r k v c ih => exact ⟨h _ hK.1, ih hK.2⟩

theorem inGrid_member {W : World V} (l : Loc) (h : InGrid C W l) : l.r < C.L.length := by
  obtain ⟨d, m, -, hm, -⟩ := h
  exact (List.getElem?_eq_some_iff.1 hm).1

theorem threads_follow {K : Kernel V} {A : Pair} {s o : Nat} {g b : Dim3} (hl : Launchable g b = true) (hz : g.z * b.z = 1)
    (hx : g.x * b.x + 2 ≤ 2 ^ 32) (hy : g.y * b.y + 2 ≤ 2 ^ 32)
    (hin : ∀ x y z, Covers K (g.x * b.x) (g.y * b.y) x y z → K.body.Inside (fun l => l.r < C.L.length) s o x y z) (i : Nat) :
    Follows C K A s o ((i % (g.x * b.x) : Nat) + 2) ((i / (g.x * b.x) : Nat) + 2) (K.threads A g b i) (progs K s o (g.x * b.x) (g.y * b.y) i) := by
  obtain ⟨hlen, hat⟩ := thread_at hl hz (by omega) (by omega)
  unfold Kernel.threads progs
  cases ht : (threads g b)[i]? with
  | none =>
    have : ¬ i < g.y * b.y * (g.x * b.x) := by
      have := List.getElem?_eq_none_iff.1 ht
      omega
    rw [if_neg this]
    refine ⟨fun h => absurd h (Int.lt_irrefl _), fun h => (nomatch h), fun z h1 h2 => absurd h2 (Int.not_lt.2 h1), fun c h => (nomatch h), ?_⟩
    simp [Kernel.prog]
  | some t =>
    have hi : i < g.y * b.y * (g.x * b.x) := by
      have := (List.getElem?_eq_some_iff.1 ht).1
      omega
    rw [if_pos hi]
    obtain ⟨h1, h2⟩ := hat i t ht
    have hc := fun z h1 h2 => covers_thread (K := K) (z := z) hi h1 h2
    have hp : 0 < g.x * b.x := by
      rcases Nat.eq_zero_or_pos (g.x * b.x) with h | h
      · rw [h] at hi; simp at hi
      · exact h
    have b1 := Nat.mod_lt i hp
    have b2 : i / (g.x * b.x) < g.y * b.y := Nat.div_lt_of_lt_mul (by rwa [Nat.mul_comm])
    have e1 : (((tidX b t + 2) % 2 ^ 32 : Nat) : Int) = (i % (g.x * b.x) : Nat) + 2 := by rw [h1, Nat.mod_eq_of_lt (by omega)]; rfl
    have e2 : (((tidY b t + 2) % 2 ^ 32 : Nat) : Int) = (i / (g.x * b.x) : Nat) + 2 := by rw [h2, Nat.mod_eq_of_lt (by omega)]; rfl
    refine ⟨fun _ => ?_, fun h => (nomatch h), fun z h1 h2 => hin _ _ _ (hc z h1 h2), fun c h => (nomatch h), rfl⟩
    simp only [Kernel.start, e1, e2, and_self]

/-- What holds for launches. -/
structure Launches (C : Cfg V) (dv : V) (K : Kernel V) (g b : Dim3) (W : World V) (s o : Nat) (es et : Ext) (σ' : Loc → V) : Prop where
  /-- When all threads have finished, all values are as they should be, however the threads took turns. -/
  values : ∀ sched r, update C K g b sched W s o = some r → Yields C dv W σ' r
  /-- Threads can always finish. -/
  finishes : ∀ sched, ∃ sched' r, update C K g b (sched ++ sched') W s o = some r
  /-- There are no data races. -/
  no_race : ∀ ids idt, Has C W s es ids → Has C W o et idt → ∀ sched, ∃ T h,
    K.exec C.L ⟨es, et, ids, idt⟩ sched (K.threads ⟨es, et, ids, idt⟩ g b) W.h = .ok (T, h) ∧
    ∀ i i', i ≠ i' → ∀ p p', K.next C.L ⟨es, et, ids, idt⟩ (T i) = some p → K.next C.L ⟨es, et, ids, idt⟩ (T i') = some p' → ¬ p.Conflict p'

theorem alone_step (q : (Loc → V) × Prog V Unit) : Thr.alone (Thr.stepAlone q).1 (Thr.stepAlone q).2 = Thr.alone q.1 q.2 := by
  obtain ⟨σ, t⟩ := q
  cases t <;> rfl

theorem alone_steps (n : Nat) (q : (Loc → V) × Prog V Unit) :
    Thr.alone (Thr.stepAlone^[n] q).1 (Thr.stepAlone^[n] q).2 = Thr.alone q.1 q.2 := by
  induction n with
  | zero => rfl
  | succ n ih => rw [Function.iterate_succ_apply', alone_step, ih]

theorem Follows.over {K : Kernel V} {A : Pair} {s o : Nat} {x y : Int} {t : Walker V} {p : Prog V Unit} (h : Follows C K A s o x y t p) :
    K.over t = true ↔ p = .ret () := by
  obtain ⟨-, h2, -, -, h3⟩ := h
  obtain ⟨z, i, j, code⟩ := t
  cases code with
  | none =>
    simp only at h3
    simp only [Kernel.over, Option.isNone_none, Bool.true_and, decide_eq_true_eq]
    subst h3
    constructor
    · intro h; rw [show (K.endZ - z).toNat = 0 by omega]; rfl
    · intro h
      by_contra hc
      obtain ⟨n, hn⟩ : ∃ n, (K.endZ - z).toNat = n + 1 := ⟨(K.endZ - z).toNat - 1, by omega⟩
      rw [hn] at h
      simp [Kernel.prog] at h
  | some c =>
    simp only at h3
    simp only [Kernel.over, Option.isNone_some, Bool.false_and, Bool.false_eq_true, false_iff]
    subst h3
    cases c <;> simp [Body.prog]

theorem progs_respect {P : Loc → Prop} (K : Kernel V) (hK : K.body.Local) {s o : Nat} (hso : s ≠ o) {nx ny : Nat}
    (hin : ∀ x y z, Covers K nx ny x y z → K.body.Inside P s o x y z) (i : Nat) :
    Thr.Respects P (owner o nx ny K.startZ K.endZ) i (progs K s o nx ny i) := by
  unfold progs
  split
  · rename_i hi
    refine respects_prog K hK _ _ (fun l hl => ?_) (fun z h1 h2 r k => owner_self hi ⟨h1, by omega⟩) (fun z h1 h2 =>
      hin _ _ _ (covers_thread hi h1 (by omega)))
    rw [owner, if_neg]
    rintro ⟨h, -⟩
    exact hso (hl.symm.trans h)
  · trivial

theorem lineCells_nodup (x y : Int) (n : Nat) (z : Int) : (lineCells x y n z).Nodup := by
  refine List.Nodup.map (fun a b h => ?_) ((GK.iota_sorted z n).imp fun h => by omega)
  simpa using h

theorem mem_lineCells {x y : Int} {n : Nat} {z x' y' z' : Int} : (x', y', z') ∈ lineCells x y n z ↔ x' = x ∧ y' = y ∧ z ≤ z' ∧ z' < z + n := by
  unfold lineCells
  simp only [List.mem_map, Prod.mk.injEq, GK.mem_iota]
  constructor
  · rintro ⟨q, h, rfl, rfl, rfl⟩; exact ⟨rfl, rfl, h⟩
  · rintro ⟨rfl, rfl, h⟩; exact ⟨z', h, rfl, rfl, rfl⟩

/-- What the thread which owns a location leaves there. -/
theorem progs_alone (K : Kernel V) (hK : K.body.Local) {s o : Nat} (hso : s ≠ o) {nx ny : Nat} (σ : Loc → V) {l : Loc} {i : Nat}
    (h : owner o nx ny K.startZ K.endZ l = some i) :
    (Thr.alone σ (progs K s o nx ny i)).2 l = K.body.apply s o (Covers K nx ny) σ l := by
  obtain ⟨hi, h1, h2, h3, h4, h5⟩ := owner_some h
  rw [progs, if_pos hi, alone_prog, Body.cells_apply hso _ hK _ (lineCells_nodup ..), Body.apply, if_pos, if_pos]
  · refine ⟨h1, ?_⟩
    rw [h2, h3]
    exact covers_thread hi h4 h5
  · refine ⟨h1, mem_lineCells.2 ⟨h2, h3, h4, by omega⟩⟩

theorem owner_none {K : Kernel V} {s o nx ny : Nat} (σ : Loc → V) {l : Loc} (h : owner o nx ny K.startZ K.endZ l = none) :
    K.body.apply s o (Covers K nx ny) σ l = σ l := by
  rw [Body.apply, if_neg]
  rintro ⟨h1, h2⟩
  rw [owner, if_pos ⟨h1, h2⟩] at h
  simp at h

theorem update_eq (K : Kernel V) (g b : Dim3) (sched : List Nat) {s o : Nat}
    {ds dt es et : Ext} (hes : selectSizes C.tr ds = .ok es) (het : selectSizes C.tr dt = .ok et) (hsym : C.asym = true ∨ ds = dt)
    {W : World V} {gs gt : Grid} {ids idt : Nat} (i1 : W.g s = some gs) (i2 : gs.dim = ds) (i3 : gs.data = some ids)
    (j1 : W.g o = some gt) (j2 : gt.dim = dt) (j3 : gt.data = some idt) :
    update C K g b sched W s o =
      match K.exec C.L ⟨es, et, ids, idt⟩ sched (K.threads ⟨es, et, ids, idt⟩ g b) W.h with
      | .ok (T, h') => if (List.range (threads g b).length).all (fun i => K.over (T i)) then some (.ok (⟨h', W.g⟩, .unit)) else none
      | .error u => some (.error u) := by
  simp only [update, i1, j1, Grid.dualCallback, i2, j2, hes, het, i3, j3, Option.getD_some]
  by_cases ha : C.asym = true
  · rw [if_pos ha]
    cases K.exec C.L ⟨es, et, ids, idt⟩ sched (K.threads ⟨es, et, ids, idt⟩ g b) W.h with
    | error u => rfl
    | ok q =>
      obtain ⟨T, h'⟩ := q
      simp only
      cases (List.range (threads g b).length).all (fun i => K.over (T i)) <;> rfl
  · rw [if_neg ha]
    have : ds = dt := hsym.resolve_left ha
    subst this
    rw [hes] at het; cases het
    rw [if_neg (by simp)]
    cases K.exec C.L ⟨es, es, ids, idt⟩ sched (K.threads ⟨es, es, ids, idt⟩ g b) W.h with
    | error u => rfl
    | ok q =>
      obtain ⟨T, h'⟩ := q
      simp only
      cases (List.range (threads g b).length).all (fun i => K.over (T i)) <;> rfl

theorem next_bytes {K : Kernel V} (hK : K.byRef = true) {A : Pair} {s o : Nat} {x y : Int} {t : Walker V} {p : Prog V Unit} {W : World V}
    (hs : Has C W s A.es A.ids) (ho : Has C W o A.et A.idt) (h : Follows C K A s o x y t p) {a : Access} (ha : K.next C.L A t = some a) :
    ∃ q : Ref, q.bytes C W = some (a.id, a.addr, a.n) ∧
      ((a.write = false ∧ ∃ c, p = .peek q c) ∨ (a.write = true ∧ ∃ v c, p = .poke q v c)) := by
  obtain ⟨h1, h2, -, -, h3⟩ := h
  obtain ⟨z, i, j, code⟩ := t
  obtain ⟨gs, s1, s2, s3⟩ := hs
  obtain ⟨go, o1, o2, o3⟩ := ho
  cases code with
  | none => simp [Kernel.next] at ha
  | some c =>
    obtain ⟨e1, e2⟩ := h1 (h2 rfl)
    simp only at h3 e1 e2
    cases c with
    | done => simp [Kernel.next] at ha
    | read new X Y Z r k c =>
      simp only [Kernel.next, Option.map_eq_some_iff] at ha
      obtain ⟨m, hm, rfl⟩ := ha
      refine ⟨⟨if new then o else s, x, y, z, X, Y, Z, r, k⟩, ?_, .inl ⟨rfl, _, h3⟩⟩
      cases new with
      | false => simp [Ref.bytes, s1, s2, s3, hm, Kernel.index, hK, e1, addr]
      | true => simp [Ref.bytes, o1, o2, o3, hm, Kernel.index, hK, e2, addr]
    | write r k v c =>
      simp only [Kernel.next, Option.map_eq_some_iff] at ha
      obtain ⟨m, hm, rfl⟩ := ha
      refine ⟨⟨o, x, y, z, 0, 0, 0, r, k⟩, ?_, .inr ⟨rfl, _, _, h3⟩⟩
      simp [Ref.bytes, o1, o2, o3, hm, Kernel.index, hK, e2, addr]

theorem launch_ok (hL : C.L.WF) (K : Kernel V) (hK : K.byRef = true) (hloc : K.body.Local) {s o : Nat} (hso : s ≠ o)
    {ds dt es et : Ext} (hes : selectSizes C.tr ds = .ok es) (het : selectSizes C.tr dt = .ok et) (hsym : C.asym = true ∨ ds = dt)
    (hx : es.x = et.x) {g b : Dim3} (hl : Launchable g b = true) (hz : g.z * b.z = 1)
    (hbx : g.x * b.x + 2 ≤ 2 ^ 32) (hby : g.y * b.y + 2 ≤ 2 ^ 32) {W : World V} (hV : Valid C dv W)
    (hds : DimsAre C W s ds) (hdt : DimsAre C W o dt) (hns : ds ≠ ⟨0, 0, 0⟩) (hnt : dt ≠ ⟨0, 0, 0⟩)
    {σ : Loc → V} (hσ : ∀ l, InGrid C W l → ValueIs C W l (σ l))
    (hin : ∀ x y z, Covers K (g.x * b.x) (g.y * b.y) x y z → K.body.Inside (InGrid C W) s o x y z) :
    Launches C dv K g b W s o es et (K.body.apply s o (Covers K (g.x * b.x) (g.y * b.y)) σ) := by
  obtain ⟨a, hR⟩ := hV.refines hL
  obtain ⟨ids, gs, i1, i2, i3, i4⟩ := GK.has_of_dims hR hds hns hes
  obtain ⟨idt, gt, j1, j2, j3, j4⟩ := GK.has_of_dims hR hdt hnt het
  have e1 : InA C a = InGrid C W := funext fun l => propext (inA_iff hR l)
  have hva : ∀ l, InGrid C W l → valA dv a l = σ l := fun l hl =>
    GK.valueIs_unique (GK.valA_valueIs hL hR ((inA_iff hR l).2 hl)) (hσ l hl)
  have hresp := progs_respect K hloc hso hin
  have hlen := (thread_at hl hz (by omega) (by omega)).1
  -- what any schedule leads to
  have key : ∀ sched, ∃ (t' : Nat → Walker V) (W' : World V) (T' : Nat → Prog V Unit), K.exec C.L ⟨es, et, ids, idt⟩ sched (K.threads ⟨es, et, ids, idt⟩ g b) W.h = .ok (t', W'.h) ∧ W'.g = W.g ∧
      Valid C dv W' ∧ (∀ l, InGrid C W' l ↔ InGrid C W l) ∧
      (∀ i, Follows C K ⟨es, et, ids, idt⟩ s o ((i % (g.x * b.x) : Nat) + 2) ((i / (g.x * b.x) : Nat) + 2) (t' i) (T' i)) ∧
      (∀ i, T' i = (Thr.stepAlone^[sched.count i] (σ, progs K s o (g.x * b.x) (g.y * b.y) i)).2) ∧
      ∀ l, InGrid C W l → ValueIs C W' l (match owner o (g.x * b.x) (g.y * b.y) K.startZ K.endZ l with
        | none => σ l
        | some i => (Thr.stepAlone^[sched.count i] (σ, progs K s o (g.x * b.x) (g.y * b.y) i)).1 l) := by
    intro sched
    obtain ⟨W', T', a', k1, kV, k2, k3, k4, k5⟩ := Thr.exec_ok (dv := dv) hL hresp sched (fun _ => 0) hV hR (inA_iff hR)
      (T := progs K s o (g.x * b.x) (g.y * b.y)) (σ := σ) (fun _ => rfl) (by
        intro l hl
        rw [hva l hl]
        cases owner o (g.x * b.x) (g.y * b.y) K.startZ K.endZ l <;> rfl)
    obtain ⟨t', m1, m2, m3⟩ := exec_follows (C := C) hK (A := ⟨es, et, ids, idt⟩) hx sched i4 j4
      (threads_follow (C := C) (K := K) (A := ⟨es, et, ids, idt⟩) (s := s) (o := o) hl hz hbx hby
        (fun x y z h => (hin x y z h).imp inGrid_member)) k1
    simp only [Nat.zero_add] at k4 k5
    refine ⟨t', W', T', m1, m2, kV, fun l => (inA_iff k2 l).symm.trans (k3 l), m3, k4, fun l hl => ?_⟩
    have := GK.valA_valueIs (dv := dv) hL k2 ((k3 l).2 hl)
    rwa [k5 l hl] at this
  refine ⟨fun sched r hr => ?_, fun sched => ?_, fun ids' idt' hs' ho' sched => ?_⟩
  · obtain ⟨t', W', T', m1, m2, m3, m4, m5, m6, m7⟩ := key sched
    rw [update_eq K g b sched hes het hsym i1 i2 i3 j1 j2 j3, m1] at hr
    simp only at hr
    split at hr
    · rename_i hall
      simp only [Option.some.injEq] at hr
      subst hr
      have hW : (⟨W'.h, W.g⟩ : World V) = W' := by rw [← m2]
      rw [hW]
      refine ⟨W', rfl, m3, GK.dimsAre_same m2, fun l hl => ?_⟩
      have := m7 l hl
      cases ho : owner o (g.x * b.x) (g.y * b.y) K.startZ K.endZ l with
      | none => rw [ho] at this; rwa [owner_none σ ho]
      | some i =>
        rw [ho] at this
        rw [← progs_alone K hloc hso σ ho]
        have hi := (owner_some ho).1
        have hov := (List.all_eq_true.1 hall) i (List.mem_range.2 (by omega))
        have hret := ((m5 i).over).1 hov
        rw [m6 i] at hret
        have hal := alone_steps (sched.count i) (σ, progs K s o (g.x * b.x) (g.y * b.y) i)
        rw [hret] at hal
        simp only [Thr.alone] at hal
        rw [← hal]
        exact this
    · simp at hr
  · -- enough steps for each thread
    let N := fun i => Thr.accesses σ (progs K s o (g.x * b.x) (g.y * b.y) i)
    let sched' := (List.range (threads g b).length).flatMap fun i => List.replicate (N i) i
    obtain ⟨t', W', T', m1, m2, m3, m4, m5, m6, m7⟩ := key (sched ++ sched')
    refine ⟨sched', .ok (⟨W'.h, W.g⟩, .unit), ?_⟩
    rw [update_eq K g b _ hes het hsym i1 i2 i3 j1 j2 j3, m1]
    simp only
    rw [if_pos]
    rw [List.all_eq_true]
    intro i hi
    refine ((m5 i).over).2 ?_
    have hc : N i ≤ (sched ++ sched').count i := by
      rw [List.count_append]
      have h1 : (List.replicate (N i) i).Sublist sched' := by
        obtain ⟨l1, l2, hs⟩ := List.append_of_mem hi
        simp only [sched', hs, List.flatMap_append, List.flatMap_cons]
        exact (List.sublist_append_left _ _).trans (List.sublist_append_right _ _)
      have := h1.count_le i
      rw [List.count_replicate_self] at this
      omega
    rw [m6 i, Thr.stepAlone_all σ _ _ hc]
  · have : ids' = ids := by
      obtain ⟨q, q1, q2, q3⟩ := hs'
      rw [i1] at q1; cases q1
      rw [i3] at q3; exact (Option.some.inj q3).symm
    subst this
    have : idt' = idt := by
      obtain ⟨q, q1, q2, q3⟩ := ho'
      rw [j1] at q1; cases q1
      rw [j3] at q3; exact (Option.some.inj q3).symm
    subst this
    obtain ⟨t', W', T', m1, m2, m3, m4, m5, m6, m7⟩ := key sched
    refine ⟨t', W'.h, m1, fun i i' hii p p' hp hp' hc => ?_⟩
    have hcell : ∀ i p, K.next C.L ⟨es, et, ids', idt'⟩ (t' i) = some p → ∃ q : Ref, q.bytes C W = some (p.id, p.addr, p.n) ∧ InGrid C W q.loc ∧
        ((p.write = false ∧ (owner o (g.x * b.x) (g.y * b.y) K.startZ K.endZ q.loc = none ∨
            owner o (g.x * b.x) (g.y * b.y) K.startZ K.endZ q.loc = some i)) ∨
          (p.write = true ∧ owner o (g.x * b.x) (g.y * b.y) K.startZ K.endZ q.loc = some i)) := by
      intro i p hp
      obtain ⟨q, q1, q2⟩ := next_bytes hK i4 j4 (m5 i) hp
      have hr := (Thr.stepAlone_respects σ _ (hresp i) (sched.count i)).1
      rw [← m6 i] at hr
      rcases q2 with ⟨q2, c, q3⟩ | ⟨q2, v, c, q3⟩
      · rw [q3] at hr
        exact ⟨q, q1, hr.1, .inl ⟨q2, hr.2.1⟩⟩
      · rw [q3] at hr
        exact ⟨q, q1, hr.1, .inr ⟨q2, hr.2.1⟩⟩
    obtain ⟨q, q1, q2, q3⟩ := hcell i p hp
    obtain ⟨q', q1', q2', q3'⟩ := hcell i' p' hp'
    obtain ⟨c1, c2, byte, c3⟩ := hc
    by_cases hne : q.loc = q'.loc
    · rw [hne] at q3
      rcases c2 with c2 | c2
      · rcases q3 with ⟨q3, -⟩ | ⟨-, q3⟩
        · rw [c2] at q3; cases q3
        · rcases q3' with ⟨-, q3' | q3'⟩ | ⟨-, q3'⟩ <;> rw [q3] at q3'
          · cases q3'
          · exact hii (Option.some.inj q3')
          · exact hii (Option.some.inj q3')
      · rcases q3' with ⟨q3', -⟩ | ⟨-, q3'⟩
        · rw [c2] at q3'; cases q3'
        · rcases q3 with ⟨-, q3 | q3⟩ | ⟨-, q3⟩ <;> rw [q3] at q3'
          · cases q3'
          · exact hii (Option.some.inj q3')
          · exact hii (Option.some.inj q3')
    · obtain ⟨id, ad, n, id', ad', n', r1, r2, r3⟩ := Thr.C61_no_race hL hV q2 q2' hne
      rw [q1] at r1; rw [q1'] at r2
      simp only [Option.some.injEq, Prod.mk.injEq] at r1 r2
      obtain ⟨rfl, rfl, rfl⟩ := r1
      obtain ⟨rfl, rfl, rfl⟩ := r2
      exact r3 byte ⟨c1, c3.1, c3.2.1, c3.2.2.1, c3.2.2.2⟩

/-! ### Time steps -/

/-- Time steps which alternate between the grids. -/
def Body.alternate (K : Body V) (P : Int → Int → Int → Prop) [∀ x y z, Decidable (P x y z)] : Nat → Nat → Nat → (Loc → V) → Loc → V
  | 0, _, _, σ => σ
  | n + 1, s, o, σ => K.alternate P n o s (K.apply s o P σ)

theorem inGrid_same {W W' : World V} (h : ∀ s d, DimsAre C W' s d ↔ DimsAre C W s d) (l : Loc) : InGrid C W' l ↔ InGrid C W l := by
  unfold InGrid
  simp only [h]

theorem steps_ok (hL : C.L.WF) (K : Kernel V) (hK : K.byRef = true) (hloc : K.body.Local) {d e : Ext} (he : selectSizes C.tr d = .ok e)
    {g b : Dim3} (hl : Launchable g b = true) (hz : g.z * b.z = 1) (hbx : g.x * b.x + 2 ≤ 2 ^ 32) (hby : g.y * b.y + 2 ≤ 2 ^ 32)
    (hd : d ≠ ⟨0, 0, 0⟩) (scheds : List (List Nat)) :
    ∀ (s o : Nat) (_ : s ≠ o) (W : World V) (_ : Valid C dv W) (_ : DimsAre C W s d) (_ : DimsAre C W o d)
      (σ : Loc → V) (_ : ∀ l, InGrid C W l → ValueIs C W l (σ l))
      (_ : ∀ x y z, Covers K (g.x * b.x) (g.y * b.y) x y z → K.body.Inside (InGrid C W) s o x y z ∧ K.body.Inside (InGrid C W) o s x y z),
      (∀ r, timeSteps C K g b scheds W s o = some r →
        Yields C dv W (K.body.alternate (Covers K (g.x * b.x) (g.y * b.y)) scheds.length s o σ) r) ∧
      ∃ scheds' : List (List Nat), scheds'.length = scheds.length ∧
        (∀ i (h : i < scheds.length) (h' : i < scheds'.length), scheds[i] <+: scheds'[i]) ∧
        (timeSteps C K g b scheds' W s o).isSome = true := by
  induction scheds with
  | nil =>
    intro s o hso W hV hs ho σ hσ hin
    refine ⟨?_, [], rfl, fun i h => (by cases h), rfl⟩
    rintro r hr
    simp only [timeSteps, Option.some.injEq] at hr
    subst hr
    exact ⟨W, rfl, hV, fun _ _ => Iff.rfl, hσ⟩
  | cons sched scheds ih =>
    intro s o hso W hV hs ho σ hσ hin
    have P := launch_ok hL K hK hloc hso he he (.inr rfl) rfl hl hz hbx hby hV hs ho hd hd hσ fun x y z h => (hin x y z h).1
    have next : ∀ W1, Valid C dv W1 → (∀ s d, DimsAre C W1 s d ↔ DimsAre C W s d) →
        (∀ l, InGrid C W l → ValueIs C W1 l (K.body.apply s o (Covers K (g.x * b.x) (g.y * b.y)) σ l)) → _ :=
      fun W1 q1 q2 q3 => ih o s (Ne.symm hso) W1 q1 ((q2 _ _).2 ho) ((q2 _ _).2 hs) _ (fun l hl => q3 l ((inGrid_same q2 l).1 hl))
        (fun x y z h => ⟨(hin x y z h).2.imp fun l => (inGrid_same q2 l).2, (hin x y z h).1.imp fun l => (inGrid_same q2 l).2⟩)
    constructor
    · intro r hr
      simp only [timeSteps] at hr
      cases hu : update C K g b sched W s o with
      | none => rw [hu] at hr; cases hr
      | some r1 =>
        obtain ⟨W1, rfl, q1, q2, q3⟩ := P.values sched r1 hu
        rw [hu] at hr
        simp only at hr
        obtain ⟨W2, m1, m2, m3, m4⟩ := (next W1 q1 q2 q3).1 r hr
        exact ⟨W2, m1, m2, fun s d => (m3 s d).trans (q2 s d), fun l hl => m4 l ((inGrid_same q2 l).2 hl)⟩
    · obtain ⟨more, r1, hu⟩ := P.finishes sched
      obtain ⟨W1, rfl, q1, q2, q3⟩ := P.values _ r1 hu
      obtain ⟨scheds', n1, n2, n3⟩ := (next W1 q1 q2 q3).2
      refine ⟨(sched ++ more) :: scheds', by simp [n1], ?_, ?_⟩
      · rintro (_ | i) h h'
        · exact List.prefix_append _ _
        · exact n2 i (by simpa using h) (by simpa using h')
      · simp only [timeSteps, hu]
        exact n3

/-! ### Accessors passed by value -/

theorem copies_step (hL : C.L.WF) {K : Kernel V} (hK : K.byRef = false) {A : Pair} {s o : Nat} {W : World V} {a : AWorld V} (hR : R C W a)
    (hV : Valid C dv W) (hs : Has C W s A.es A.ids) (ho : Has C W o A.et A.idt) (hin : K.body.Inside (InA C a) s o 0 0 0) {t : Walker V}
    (ht : ∀ c, t.code = some c → c.Inside (InA C a) s o 0 0 0) :
    ∃ t' h' a', K.step C.L A t W.h = .ok (t', h') ∧ R C ⟨h', W.g⟩ a' ∧ Valid C dv ⟨h', W.g⟩ ∧ (∀ l, InA C a' l ↔ InA C a l) ∧
      (∀ c, t'.code = some c → c.Inside (InA C a) s o 0 0 0) ∧
      ∀ l, InA C a l → ¬ (l.s = o ∧ l.x = 0 ∧ l.y = 0 ∧ l.z = 0) → valA dv a' l = valA dv a l := by
  have g0 : ∀ e : Ext, genIndex e 0 0 0 = 0 := fun e => by simp [genIndex]
  obtain ⟨z, i, j, code⟩ := t
  cases code with
  | none =>
    by_cases hz : z < K.endZ
    · exact ⟨⟨z, i, j, some K.body⟩, W.h, a, by simp only [Kernel.step, if_pos hz], hR, hV, fun _ => .rfl, by rintro c ⟨⟩; exact hin, fun _ _ _ => rfl⟩
    · exact ⟨⟨z, i, j, none⟩, W.h, a, by simp only [Kernel.step, if_neg hz], hR, hV, fun _ => .rfl, (fun c h => nomatch h), fun _ _ _ => rfl⟩
  | some c =>
    have hc := ht c rfl
    cases c with
    | done => exact ⟨_, W.h, a, rfl, hR, hV, fun _ => .rfl, (fun c h => nomatch h), fun _ _ _ => rfl⟩
    | read new X Y Z r k c =>
      have : ∃ m b v, C.L[r]? = some m ∧ W.h.blk (if new then A.idt else A.ids) = some b ∧
          b.read (addr C.L (if new then A.et else A.es) 0 X Y Z r m k) m.ty = .ok v := by
        cases new with
        | false =>
          obtain ⟨m, b, q1, q2, q3⟩ := read_at (dv := dv) hL hR hs hc.1
          rw [g0] at q3
          exact ⟨m, b, _, q1, q2, q3⟩
        | true =>
          obtain ⟨m, b, q1, q2, q3⟩ := read_at (dv := dv) hL hR ho hc.1
          rw [g0] at q3
          exact ⟨m, b, _, q1, q2, q3⟩
      obtain ⟨m, b, v, q1, q2, q3⟩ := this
      refine ⟨⟨z, i, j, some (c v)⟩, W.h, a, ?_, hR, hV, fun _ => .rfl, by rintro _ ⟨⟩; exact hc.2 v, fun _ _ _ => rfl⟩
      simp only [Kernel.step, q1, q2, Kernel.index, hK, Bool.false_eq_true, if_false, q3]
    | write r k v c =>
      obtain ⟨m, b, b', a', q1, q2, q3, q4, q5, q6, q7⟩ := write_at (dv := dv) hL hR hV ho hc.1 v
      rw [g0] at q3
      refine ⟨⟨z, i, j, some c⟩, W.h.set A.idt b', a', ?_, q4, q5, q6, by rintro _ ⟨⟩; exact hc.2, fun l hl hn => ?_⟩
      · simp only [Kernel.step, q1, q2, Kernel.index, hK, Bool.false_eq_true, if_false, q3]
      · rw [q7 l hl, if_neg]
        rintro rfl
        exact hn ⟨rfl, rfl, rfl, rfl⟩

theorem copies_exec (hL : C.L.WF) {K : Kernel V} (hK : K.byRef = false) {A : Pair} {s o : Nat} {inside : Loc → Prop}
    (hin : K.body.Inside inside s o 0 0 0) (sched : List Nat) {W : World V} {a : AWorld V} (hR : R C W a) (hV : Valid C dv W)
    (hs : Has C W s A.es A.ids) (ho : Has C W o A.et A.idt) (hi : ∀ l, InA C a l ↔ inside l) {T : Nat → Walker V}
    (hT : ∀ i c, (T i).code = some c → c.Inside inside s o 0 0 0) :
    ∃ T' h' a', K.exec C.L A sched T W.h = .ok (T', h') ∧ R C ⟨h', W.g⟩ a' ∧ Valid C dv ⟨h', W.g⟩ ∧ (∀ l, InA C a' l ↔ inside l) ∧
      ∀ l, inside l → ¬ (l.s = o ∧ l.x = 0 ∧ l.y = 0 ∧ l.z = 0) → valA dv a' l = valA dv a l := by
  induction sched generalizing W a T with
  | nil => exact ⟨T, W.h, a, rfl, hR, hV, hi, fun _ _ _ => rfl⟩
  | cons i sched ih =>
    have e1 : InA C a = inside := funext fun l => propext (hi l)
    obtain ⟨t1, h1, a1, k1, k2, k3, k4, k5, k6⟩ := copies_step hL hK hR hV hs ho (by rw [e1]; exact hin) (t := T i) (by rw [e1]; exact hT i)
    rw [e1] at k5
    obtain ⟨T', h', a', m1, m2, m3, m4, m5⟩ := ih (W := ⟨h1, W.g⟩) k2 k3 hs ho (fun l => (k4 l).trans (hi l)) (T := World.upd T i t1) (by
      intro j c hc
      by_cases hj : j = i
      · subst hj; rw [upd_self] at hc; exact k5 c hc
      · rw [upd_ne _ _ hj] at hc; exact hT j c hc)
    refine ⟨T', h', a', ?_, m2, m3, m4, fun l hl hn => (m5 l hl hn).trans (k6 l ((hi l).2 hl) hn)⟩
    simp only [Kernel.exec, k1]
    exact m1

/-! ### Theorems -/

/-- C67 for loops over rows: the functor does to the grids what the body does to plain 3D arrays, cell by cell, in the same order. Missing:
    grids with different extents, see `C67_false_rows`. -/
theorem C67_rows_partial (hL : C.L.WF) (ds dt es et : Ext) (hes : selectSizes C.tr ds = .ok es) (het : selectSizes C.tr dt = .ok et)
    (hsym : C.asym = true ∨ ds = dt) (hx : es.x = et.x) (hy : es.y = et.y) (K : Body V) (b : Box) (W : World V) (hV : Valid C dv W) (s o : Nat)
    (hds : DimsAre C W s ds) (hdt : DimsAre C W o dt) (hns : ds ≠ ⟨0, 0, 0⟩) (hnt : dt ≠ ⟨0, 0, 0⟩)
    (σ : Loc → V) (hσ : ∀ l, InGrid C W l → ValueIs C W l (σ l)) (hin : ∀ x y z, b.Has x y z → K.Inside (InGrid C W) s o x y z) :
    Yields C dv W (K.cells s o b.cells σ) (updateRows C K b W s o) :=
  rows_ok hL hes het hsym hx hy K b hV hds hdt hns hnt hσ hin

theorem cells_nodup (b : Box) : b.cells.Nodup := by
  have hio : ∀ x n, (Peel.iota x n).Nodup := fun x n => (GK.iota_sorted x n).imp fun h => by omega
  unfold Box.cells
  rw [List.nodup_flatMap]
  refine ⟨fun r _ => (hio _ _).map fun x y h => by simpa using h, ?_⟩
  have hrows : b.rows.Nodup := by
    unfold GK.Box.rows
    rw [List.nodup_flatMap]
    refine ⟨fun z _ => (hio _ _).map fun x y h => by simpa using h, (hio _ _).imp ?_⟩
    intro z z' hne
    simp only [Function.onFun, List.disjoint_left, List.mem_map]
    rintro _ ⟨y, -, rfl⟩ ⟨y', -, h⟩
    simp only [Prod.mk.injEq] at h
    exact hne h.2.symm
  refine hrows.imp ?_
  intro r r' hne
  simp only [Function.onFun, List.disjoint_left, List.mem_map]
  rintro _ ⟨x, -, rfl⟩ ⟨x', -, h⟩
  simp only [Prod.mk.injEq] at h
  exact hne (Prod.ext h.2.1.symm h.2.2.symm)

/-- C67 for loops over rows, if the body reads only from the old grid, and from the cell which it updates: all cells of the box are computed
    from the values which they had before. -/
theorem C67_rows_local_partial (hL : C.L.WF) (ds dt es et : Ext) (hes : selectSizes C.tr ds = .ok es) (het : selectSizes C.tr dt = .ok et)
    (hsym : C.asym = true ∨ ds = dt) (hx : es.x = et.x) (hy : es.y = et.y) (K : Body V) (hK : K.Local) (b : Box) (W : World V)
    (hV : Valid C dv W) (s o : Nat) (hso : s ≠ o)
    (hds : DimsAre C W s ds) (hdt : DimsAre C W o dt) (hns : ds ≠ ⟨0, 0, 0⟩) (hnt : dt ≠ ⟨0, 0, 0⟩)
    (σ : Loc → V) (hσ : ∀ l, InGrid C W l → ValueIs C W l (σ l)) (hin : ∀ x y z, b.Has x y z → K.Inside (InGrid C W) s o x y z) :
    Yields C dv W (K.apply s o b.Has σ) (updateRows C K b W s o) := by
  have := rows_ok hL hes het hsym hx hy K b hV hds hdt hns hnt hσ hin
  have e : K.cells s o b.cells σ = K.apply s o b.Has σ := by
    funext l
    rw [K.cells_apply hso hK _ (cells_nodup b), Body.apply]
    simp only [GK.Box.mem_cells]
  rwa [e] at this

/-- C67 for launches: however the threads take turns, they compute all cells from the values which these had before, and there are no data
    races. Missing: accessors which are passed by value (`C67_false_copies`), and grids whose extents in x-direction differ
    (`C67_false_plane`). -/
theorem C67_launch_partial (hL : C.L.WF) (K : Kernel V) (hK : K.byRef = true) (hloc : K.body.Local) (s o : Nat) (hso : s ≠ o)
    (ds dt es et : Ext) (hes : selectSizes C.tr ds = .ok es) (het : selectSizes C.tr dt = .ok et) (hsym : C.asym = true ∨ ds = dt)
    (hx : es.x = et.x) (g b : Dim3) (hl : Launchable g b = true) (hz : g.z * b.z = 1)
    (hbx : g.x * b.x + 2 ≤ 2 ^ 32) (hby : g.y * b.y + 2 ≤ 2 ^ 32) (W : World V) (hV : Valid C dv W)
    (hds : DimsAre C W s ds) (hdt : DimsAre C W o dt) (hns : ds ≠ ⟨0, 0, 0⟩) (hnt : dt ≠ ⟨0, 0, 0⟩)
    (σ : Loc → V) (hσ : ∀ l, InGrid C W l → ValueIs C W l (σ l))
    (hin : ∀ x y z, Covers K (g.x * b.x) (g.y * b.y) x y z → K.body.Inside (InGrid C W) s o x y z) :
    Launches C dv K g b W s o es et (K.body.apply s o (Covers K (g.x * b.x) (g.y * b.y)) σ) :=
  launch_ok hL K hK hloc hso hes het hsym hx hl hz hbx hby hV hds hdt hns hnt hσ hin

/-- C67 for time steps which alternate between the grids. -/
theorem C67_steps_partial (hL : C.L.WF) (K : Kernel V) (hK : K.byRef = true) (hloc : K.body.Local) (s o : Nat) (hso : s ≠ o)
    (d e : Ext) (he : selectSizes C.tr d = .ok e) (g b : Dim3) (hl : Launchable g b = true) (hz : g.z * b.z = 1)
    (hbx : g.x * b.x + 2 ≤ 2 ^ 32) (hby : g.y * b.y + 2 ≤ 2 ^ 32) (W : World V) (hV : Valid C dv W)
    (hds : DimsAre C W s d) (hdt : DimsAre C W o d) (hd : d ≠ ⟨0, 0, 0⟩) (σ : Loc → V) (hσ : ∀ l, InGrid C W l → ValueIs C W l (σ l))
    (hin : ∀ x y z, Covers K (g.x * b.x) (g.y * b.y) x y z → K.body.Inside (InGrid C W) s o x y z ∧ K.body.Inside (InGrid C W) o s x y z)
    (scheds : List (List Nat)) :
    (∀ r, timeSteps C K g b scheds W s o = some r →
      Yields C dv W (K.body.alternate (Covers K (g.x * b.x) (g.y * b.y)) scheds.length s o σ) r) ∧
    ∃ scheds' : List (List Nat), scheds'.length = scheds.length ∧
      (∀ i (h : i < scheds.length) (h' : i < scheds'.length), scheds[i] <+: scheds'[i]) ∧
      (timeSteps C K g b scheds' W s o).isSome = true :=
  steps_ok hL K hK hloc he hl hz hbx hby hd scheds s o hso W hV hds hdt σ hσ hin

/-- C67 is false if the accessors are passed by value: no cell of the new grid but `(0, 0, 0)` is ever updated, and threads which begin with
    a write race. -/
theorem C67_false_copies (hL : C.L.WF) (K : Kernel V) (hK : K.byRef = false) (s o : Nat)
    (ds dt es et : Ext) (hes : selectSizes C.tr ds = .ok es) (het : selectSizes C.tr dt = .ok et) (hsym : C.asym = true ∨ ds = dt)
    (g b : Dim3) (W : World V) (hV : Valid C dv W)
    (hds : DimsAre C W s ds) (hdt : DimsAre C W o dt) (hns : ds ≠ ⟨0, 0, 0⟩) (hnt : dt ≠ ⟨0, 0, 0⟩)
    (σ : Loc → V) (hσ : ∀ l, InGrid C W l → ValueIs C W l (σ l)) (hin : K.body.Inside (InGrid C W) s o 0 0 0) :
    (∀ sched r, update C K g b sched W s o = some r → ∃ W', r = .ok (W', .unit) ∧
      ∀ l, InGrid C W l → ¬ (l.s = o ∧ l.x = 0 ∧ l.y = 0 ∧ l.z = 0) → ValueIs C W' l (σ l)) ∧
    ∀ r k v c, K.body = .write r k v c → K.startZ < K.endZ → 2 ≤ (threads g b).length → ∃ ids idt T h p p', Has C W s es ids ∧ Has C W o et idt ∧
      K.exec C.L ⟨es, et, ids, idt⟩ [0, 1] (K.threads ⟨es, et, ids, idt⟩ g b) W.h = .ok (T, h) ∧
      K.next C.L ⟨es, et, ids, idt⟩ (T 0) = some p ∧ K.next C.L ⟨es, et, ids, idt⟩ (T 1) = some p' ∧ p.Conflict p' := by
  obtain ⟨a, hR⟩ := hV.refines hL
  obtain ⟨ids, gs, i1, i2, i3, i4⟩ := GK.has_of_dims hR hds hns hes
  obtain ⟨idt, gt, j1, j2, j3, j4⟩ := GK.has_of_dims hR hdt hnt het
  have hva : ∀ l, InGrid C W l → valA dv a l = σ l := fun l hl =>
    GK.valueIs_unique (GK.valA_valueIs hL hR ((inA_iff hR l).2 hl)) (hσ l hl)
  have hcode : ∀ A i, (K.threads A g b i).code = none := by
    intro A i
    unfold Kernel.threads
    split <;> rfl
  constructor
  · intro sched r hr
    obtain ⟨T', h', a', m1, m2, m3, m4, m5⟩ := copies_exec (dv := dv) hL hK (A := ⟨es, et, ids, idt⟩) hin sched hR hV i4 j4 (inA_iff hR)
      (T := K.threads ⟨es, et, ids, idt⟩ g b) (by intro i c hc; rw [hcode] at hc; cases hc)
    rw [update_eq K g b sched hes het hsym i1 i2 i3 j1 j2 j3, m1] at hr
    simp only at hr
    split at hr
    · simp only [Option.some.injEq] at hr
      subst hr
      refine ⟨⟨h', W.g⟩, rfl, fun l hl hn => ?_⟩
      have := GK.valA_valueIs (dv := dv) hL m2 ((m4 l).2 hl)
      rwa [m5 l hl hn, hva l hl] at this
    · simp at hr
  · intro r k v c hb hzz hlen
    rw [hb] at hin
    obtain ⟨d, m, -, hm, -⟩ := hin.1
    have hst : ∀ i, i < (threads g b).length → ∃ u w, K.threads ⟨es, et, ids, idt⟩ g b i = ⟨K.startZ, u, w, none⟩ := by
      intro i hi
      simp only [Kernel.threads, List.getElem?_eq_getElem hi, Kernel.start]
      exact ⟨_, _, rfl⟩
    obtain ⟨u0, w0, t0⟩ := hst 0 (by omega)
    obtain ⟨u1, w1, t1⟩ := hst 1 (by omega)
    let p : Access := ⟨idt, addr C.L et 0 0 0 0 r m k, m.ty.size, true⟩
    refine ⟨ids, idt, World.upd (World.upd (K.threads ⟨es, et, ids, idt⟩ g b) 0 ⟨K.startZ, u0, w0, some K.body⟩) 1 ⟨K.startZ, u1, w1, some K.body⟩, W.h,
      p, p, i4, j4, ?_, ?_, ?_, rfl, .inl rfl, p.addr, Int.le_refl _, ?_, Int.le_refl _, ?_⟩
    · simp only [Kernel.exec, t0, Kernel.step, if_pos hzz, upd_ne _ _ (show (1 : Nat) ≠ 0 by decide), t1]
    · rw [upd_ne _ _ (show (0 : Nat) ≠ 1 by decide), upd_self]
      simp [Kernel.next, hb, hm, Kernel.index, hK, p]
    · rw [upd_self]
      simp [Kernel.next, hb, hm, Kernel.index, hK, p]
    all_goals
      have := (hL m (List.mem_of_getElem? hm)).1
      simp only [p]
      omega

/-- C67 is false for grids whose extents in x-direction differ: the size of the planes of the new grid is computed with the width of
    the old one. If the new grid is quadratic then the thread for `(2, 2)` updates `(2, 2 + width, 0)` instead of `(2, 2, 1)`. -/
theorem C67_false_plane (hL : C.L.WF) (ha : C.asym = true) (s o : Nat) (ds dt es et : Ext) (hes : selectSizes C.tr ds = .ok es)
    (het : selectSizes C.tr dt = .ok et) (hsq : et.x = et.y) (W : World V) (hV : Valid C dv W)
    (hds : DimsAre C W s ds) (hdt : DimsAre C W o dt) (hns : ds ≠ ⟨0, 0, 0⟩) (hd : 2 < dt.x ∧ 2 + es.x < dt.y ∧ 1 < dt.z)
    (σ : Loc → V) (hσ : ∀ l, InGrid C W l → ValueIs C W l (σ l)) (r k : Nat) (hr : ∃ m, C.L[r]? = some m ∧ k < m.elems) (v : V) :
    ∃ sched ret, update C ⟨true, .write r k v .done, 0, 2⟩ ⟨1, 1, 1⟩ ⟨1, 1, 1⟩ sched W s o = some ret ∧
      Yields C dv W (fun l => if l = ⟨o, 2, 2, 0, r, k⟩ ∨ l = ⟨o, 2, 2 + es.x, 0, r, k⟩ then v else σ l) ret := by
  obtain ⟨a, hR⟩ := hV.refines hL
  have hnt : dt ≠ ⟨0, 0, 0⟩ := by rintro rfl; simp at hd
  obtain ⟨ids, gs, i1, i2, i3, i4⟩ := GK.has_of_dims hR hds hns hes
  obtain ⟨idt, gt, j1, j2, j3, j4⟩ := GK.has_of_dims hR hdt hnt het
  obtain ⟨m, hm, hk⟩ := hr
  have hva : ∀ l, InGrid C W l → valA dv a l = σ l := fun l hl =>
    GK.valueIs_unique (GK.valA_valueIs hL hR ((inA_iff hR l).2 hl)) (hσ l hl)
  have hg1 : InGrid C W ⟨o, 2, 2, 0, r, k⟩ := ⟨dt, m, hdt, hm, hk, by simp only; omega⟩
  have hg2 : InGrid C W ⟨o, 2, 2 + es.x, 0, r, k⟩ := ⟨dt, m, hdt, hm, hk, by simp only; omega⟩
  obtain ⟨m1, b1, b1', a1, p1, p2, p3, p4, p5, p6, p7⟩ := write_at (dv := dv) hL hR hV j4 ((inA_iff hR _).2 hg1) v
  obtain ⟨m2, b2, b2', a2, q1, q2, q3, q4, q5, q6, q7⟩ := write_at (dv := dv) hL p4 p5 (o := o) (e := et) (id := idt) j4 ((p6 _).2 ((inA_iff hR _).2 hg2)) v
  rw [hm] at p1 q1
  cases p1; cases q1
  have hidx : genIndex et 2 2 0 + (es.x : Int) * et.y = genIndex et 2 (2 + es.x) 0 := by
    unfold genIndex; rw [hsq]; ring
  let K : Kernel V := ⟨true, .write r k v .done, 0, 2⟩
  let A : Pair := ⟨es, et, ids, idt⟩
  have ht : K.threads A ⟨1, 1, 1⟩ ⟨1, 1, 1⟩ 0 = ⟨0, genIndex es 2 2 0, genIndex et 2 2 0, none⟩ := rfl
  have q2' : (W.h.set idt b1').blk idt = some b2 := q2
  have hex : ∃ T, K.exec C.L A (List.replicate 6 0) (K.threads A ⟨1, 1, 1⟩ ⟨1, 1, 1⟩) W.h = .ok (T, (W.h.set idt b1').set idt b2') ∧
      K.over (T 0) = true := by
    simp only [List.replicate, Kernel.exec, ht, upd_self, Kernel.step, K, A, Kernel.index, if_true, hm, p2, p3, planeNew, hidx,
      show (0 : Int) < 2 by decide, show (0 : Int) + 1 < 2 by decide, q2', q3]
    exact ⟨_, rfl, by rw [upd_self]; rfl⟩
  obtain ⟨T, hT, hT0⟩ := hex
  refine ⟨List.replicate 6 0, .ok (⟨(W.h.set idt b1').set idt b2', W.g⟩, .unit), ?_, _, rfl, q5, fun s d => ?_, fun l hl => ?_⟩
  · rw [update_eq K ⟨1, 1, 1⟩ ⟨1, 1, 1⟩ _ hes het (.inl ha) i1 i2 i3 j1 j2 j3, hT]
    simp only
    rw [if_pos]
    have : (threads ⟨1, 1, 1⟩ ⟨1, 1, 1⟩).length = 1 := by decide
    rw [this]
    simp only [List.range_succ, List.range_zero, List.nil_append, List.all_cons, List.all_nil, Bool.and_true, hT0]
  · exact GK.dimsAre_same (W := W) (W' := ⟨(W.h.set idt b1').set idt b2', W.g⟩) rfl s d
  · have h1 := (inA_iff hR l).2 hl
    have := GK.valA_valueIs (dv := dv) hL q4 ((q6 l).2 ((p6 l).2 h1))
    rw [q7 l ((p6 l).2 h1), p7 l h1, hva l hl] at this
    show ValueIs C _ l (if _ then v else σ l)
    by_cases c2 : l = ⟨o, 2, 2 + es.x, 0, r, k⟩
    · rw [if_pos c2] at this; rwa [if_pos (.inr c2)]
    · rw [if_neg c2] at this
      by_cases c1 : l = ⟨o, 2, 2, 0, r, k⟩
      · rw [if_pos c1] at this; rwa [if_pos (.inl c1)]
      · rw [if_neg c1] at this; rwa [if_neg (not_or.2 ⟨c1, c2⟩)]

/-- C67 is false for loops over rows of grids whose extents differ: the index of the first accessor is used for the second one, too. A
    functor which should update `(0, 1, 0)` updates `(width, 0, 0)` instead, where `width` is the extent of the old grid. -/
theorem C67_false_rows (hL : C.L.WF) (ha : C.asym = true) (s o : Nat) (ds dt es et : Ext) (hes : selectSizes C.tr ds = .ok es)
    (het : selectSizes C.tr dt = .ok et) (W : World V) (hV : Valid C dv W)
    (hds : DimsAre C W s ds) (hdt : DimsAre C W o dt) (hns : ds ≠ ⟨0, 0, 0⟩) (hd : es.x < dt.x ∧ 1 < dt.y ∧ 0 < dt.z)
    (σ : Loc → V) (hσ : ∀ l, InGrid C W l → ValueIs C W l (σ l)) (r k : Nat) (hr : ∃ m, C.L[r]? = some m ∧ k < m.elems) (v : V) :
    Yields C dv W (fun l => if l = ⟨o, es.x, 0, 0, r, k⟩ then v else σ l) (updateRows C (.write r k v .done) ⟨0, 1, 1, 2, 0, 1⟩ W s o) := by
  obtain ⟨a, hR⟩ := hV.refines hL
  have hnt : dt ≠ ⟨0, 0, 0⟩ := by rintro rfl; simp at hd
  obtain ⟨ids, gs, i1, i2, i3, i4⟩ := GK.has_of_dims hR hds hns hes
  obtain ⟨idt, gt, j1, j2, j3, j4⟩ := GK.has_of_dims hR hdt hnt het
  obtain ⟨m, hm, hk⟩ := hr
  have hva : ∀ l, InGrid C W l → valA dv a l = σ l := fun l hl =>
    GK.valueIs_unique (GK.valA_valueIs hL hR ((inA_iff hR l).2 hl)) (hσ l hl)
  have hg1 : InGrid C W ⟨o, es.x, 0, 0, r, k⟩ := ⟨dt, m, hdt, hm, hk, by simp only; omega⟩
  obtain ⟨m1, b1, b1', a1, p1, p2, p3, p4, p5, p6, p7⟩ := write_at (dv := dv) hL hR hV j4 ((inA_iff hR _).2 hg1) v
  rw [hm] at p1
  cases p1
  have h1 : genIndex es 0 1 0 = genIndex et es.x 0 0 := by simp [genIndex]
  have h2 : (genIndex es 1 1 0 - genIndex et es.x 0 0).toNat = 1 := by rw [← h1]; simp [genIndex]
  have hrows : GK.Box.rows ⟨0, 1, 1, 2, 0, 1⟩ = [(1, 0)] := by decide
  refine ⟨⟨W.h.set idt b1', W.g⟩, ?_, p5, GK.dimsAre_same rfl, fun l hl => ?_⟩
  · have hsw : Body.sweep C.L ⟨es, et, ids, idt⟩ (.write r k v .done) 0 1 [(1, 0)] W.h = .ok (W.h.set idt b1') := by
      simp only [Body.sweep, Body.line, h1, h2, Body.row, Body.run, hm, p2, p3]
    rw [updateRows, hrows]
    simp only [World.withG, i1, j1, Grid.dualCallback, i2, j2, hes, het, i3, j3, Option.getD_some, ha, if_true, hsw, World.ofH]
  · have h1 := (inA_iff hR l).2 hl
    have := GK.valA_valueIs (dv := dv) hL p4 ((p6 l).2 h1)
    rwa [p7 l h1, hva l hl] at this

theorem grow_bounds {dim : Nat} (h : 1 ≤ dim) (n w : Nat) (hw : 1 ≤ w) (h2 : w = 1 ∨ 2 ≤ w ∧ w / 2 ≤ dim) (hn : 1 ≤ n ∨ 2 ≤ w) :
    1 ≤ grow dim n w / 2 ∧ grow dim n w / 2 ≤ dim := by
  induction n generalizing w with
  | zero => simp only [grow]; omega
  | succ n ih =>
    simp only [grow]
    split
    · exact ih (w * 2) (by omega) (.inr ⟨by omega, by omega⟩) (.inr (by omega))
    · omega

/-- C67 is false for the launch parameters of the LBM example: for every size at which kernels can be launched there is a thread whose cells are outside of
    the grid. -/
theorem C67_false_dims (dim : Nat) (h2 : 2 ≤ dim) (h : dim < 131072) :
    Launchable (dimGrid dim) (dimBlock dim) = true ∧ ∃ t ∈ threads (dimGrid dim) (dimBlock dim), dim ≤ tidY (dimBlock dim) t + 2 := by
  obtain ⟨w1, w2⟩ := grow_bounds (dim := dim) (by omega) 31 1 (Nat.le_refl _) (.inl rfl) (.inl (by omega))
  have b1 : 1 ≤ blockWidth dim := by unfold blockWidth; omega
  have b2 : blockWidth dim ≤ dim := by unfold blockWidth; omega
  have b3 : blockWidth dim ≤ 256 := by unfold blockWidth; omega
  have hq : dim / blockWidth dim ≤ dim := Nat.div_le_self _ _
  have hq1 : 1 ≤ dim / blockWidth dim := (Nat.one_le_div_iff b1).2 b2
  have hl : Launchable (dimGrid dim) (dimBlock dim) = true := by
    have c1 : dim / blockWidth dim ≤ 2 ^ 31 - 1 := by omega
    have c2 : dim / 2 ≤ 65535 := by omega
    have c3 : blockWidth dim * 2 * 1 ≤ 1024 := by omega
    simp only [Launchable, Bool.and_eq_true]
    exact ⟨⟨⟨decide_eq_true c1, decide_eq_true c2⟩, rfl⟩, decide_eq_true c3⟩
  refine ⟨hl, ?_⟩
  have hx : (dimGrid dim).x * (dimBlock dim).x ≤ dim := Nat.div_mul_le_self _ _
  have hy : (dimGrid dim).y * (dimBlock dim).y ≤ dim := Nat.div_mul_le_self _ _
  have hmap := threads_coords (dimGrid dim) (dimBlock dim) hl (by omega) (by omega) (show 1 * 1 ≤ 2 ^ 32 by decide)
  have hmem : ((0, dim / 2 * 2 - 1, 0) : Nat × Nat × Nat) ∈ (threads (dimGrid dim) (dimBlock dim)).map (coords (dimBlock dim)) := by
    rw [hmap, mem_cellList]
    refine ⟨?_, ?_, ?_⟩
    · exact Nat.mul_pos hq1 b1
    · show dim / 2 * 2 - 1 < dim / 2 * 2
      omega
    · exact Nat.one_pos
  obtain ⟨t, ht, hc⟩ := List.mem_map.1 hmem
  refine ⟨t, ht, ?_⟩
  simp only [coords, Prod.mk.injEq] at hc
  omega

/-! ### Examples -/

namespace Demo
open GK.Demo (dC hL inGrid)

/-- struct { float temp; float weight[2]; } with default sizes; functors may be applied to grids with different dimensions. -/
def aC : Cfg (BitVec 32) := { dC with asym := true }

theorem world (c : Bool) (d d' e e' : Ext) (hd : d ≠ ⟨0, 0, 0⟩) (hd' : d' ≠ ⟨0, 0, 0⟩) (he : selectSizes .dflt d = .ok e)
    (he' : selectSizes .dflt d' = .ok e') :
    ∃ W, Valid { dC with asym := c } 0 W ∧ DimsAre { dC with asym := c } W 0 d ∧ DimsAre { dC with asym := c } W 1 d' := by
  have hleg : Spec.Legal { dC with asym := c } 0 Spec.start [.new 0 d, .new 1 d'] :=
    .new rfl hd he (.new (by simp [World.upd, Spec.start]) hd' he' .nil)
  obtain ⟨W, outs, a, h1, h2, h3, -⟩ := run_refines (C := { dC with asym := c }) (dv := 0) hL R.init [.new 0 d, .new 1 d'] []
    (by rw [List.append_nil]; exact hleg)
  refine ⟨W, ⟨_, _, hleg, h1⟩, ?_⟩
  cases h2 with
  | cons p1 r1 =>
    cases r1 with
    | cons p2 r2 =>
      cases r2
      cases p1 with
      | newBlank => exact absurd rfl hd
      | newFail _ _ _ _ hx => exact absurd (hx.symm.trans he) (by simp)
      | new _ _ e1 _ he1 =>
        cases p2 with
        | newBlank => exact absurd rfl hd'
        | newFail _ _ _ _ hx => exact absurd (hx.symm.trans he') (by simp)
        | new _ _ e2 _ he2 => exact ⟨h3.dims ((upd_ne _ _ (show (0 : Nat) ≠ 1 by decide)).trans (upd_self _ _ _)), h3.dims (upd_self _ _ _)⟩

/-- new.temp = old.temp[-1, 0, 0] + old.temp[0, 1, 1]; new.weight[1] = new.temp * old.weight[0]; -/
def B : Body (BitVec 32) :=
  .read false (-1) 0 0 0 0 fun u => .read false 0 1 1 0 0 fun v => .write 0 0 (u + v) <|
    .read true 0 0 0 0 0 fun t => .read false 0 0 0 1 0 fun w => .write 1 1 (t * w) .done

theorem local' : B.Local := by simp [B, Body.Local]

def K : Kernel (BitVec 32) := ⟨true, B, 1, 4⟩

theorem covers {x y z : Int} (h : Covers K (2 * 2) (2 * 1) x y z) : 2 ≤ x ∧ x < 6 ∧ 2 ≤ y ∧ y < 4 ∧ 1 ≤ z ∧ z < 4 := by
  simp only [Covers, K] at h; omega

theorem inside {W : World (BitVec 32)} (s o : Nat) (hs : DimsAre dC W s ⟨8, 6, 6⟩) (ho : DimsAre dC W o ⟨8, 6, 6⟩) {x y z : Int}
    (h : 2 ≤ x ∧ x < 6 ∧ 2 ≤ y ∧ y < 4 ∧ 1 ≤ z ∧ z < 4) : B.Inside (InGrid dC W) s o x y z := by
  refine ⟨inGrid s _ hs _ _ _ _ _ (.inl ⟨rfl, rfl⟩) ?_, fun u => ⟨inGrid s _ hs _ _ _ _ _ (.inl ⟨rfl, rfl⟩) ?_, fun v =>
    ⟨inGrid o _ ho _ _ _ _ _ (.inl ⟨rfl, rfl⟩) ?_, inGrid o _ ho _ _ _ _ _ (.inl ⟨rfl, rfl⟩) ?_, fun t =>
      ⟨inGrid s _ hs _ _ _ _ _ (.inr ⟨rfl, by decide⟩) ?_, fun w => ⟨inGrid o _ ho _ _ _ _ _ (.inr ⟨rfl, by decide⟩) ?_, trivial⟩⟩⟩⟩⟩ <;>
    (simp only; omega)

/-- The theorem about launches applies. -/
example : ∃ W σ, Launches dC 0 K ⟨2, 2, 1⟩ ⟨2, 1, 1⟩ W 0 1 ⟨32, 32, 32⟩ ⟨32, 32, 32⟩ (B.apply 0 1 (Covers K 4 2) σ) := by
  obtain ⟨W, hV, h0, h1⟩ := GK.Demo.world ⟨8, 6, 6⟩ ⟨32, 32, 32⟩ (by decide) (by decide)
  obtain ⟨σ, hσ⟩ := Thr.exists_store hL hV
  exact ⟨W, σ, C67_launch_partial hL K rfl local' 0 1 (by decide) _ _ _ _ (by decide) (by decide) (.inr rfl) rfl ⟨2, 2, 1⟩ ⟨2, 1, 1⟩ (by decide) rfl
    (by decide) (by decide) W hV h0 h1 (by decide) (by decide) σ hσ fun x y z h => inside 0 1 h0 h1 (covers h)⟩

/-- The theorem about time steps applies. -/
example : ∃ W σ, ∀ s1 s2 s3 r, timeSteps dC K ⟨2, 2, 1⟩ ⟨2, 1, 1⟩ [s1, s2, s3] W 0 1 = some r →
    Yields dC 0 W (B.alternate (Covers K 4 2) 3 0 1 σ) r := by
  obtain ⟨W, hV, h0, h1⟩ := GK.Demo.world ⟨8, 6, 6⟩ ⟨32, 32, 32⟩ (by decide) (by decide)
  obtain ⟨σ, hσ⟩ := Thr.exists_store hL hV
  exact ⟨W, σ, fun s1 s2 s3 => (C67_steps_partial hL K rfl local' 0 1 (by decide) ⟨8, 6, 6⟩ ⟨32, 32, 32⟩ (by decide) ⟨2, 2, 1⟩ ⟨2, 1, 1⟩ (by decide) rfl
    (by decide) (by decide) W hV h0 h1 (by decide) σ hσ (fun x y z h => ⟨inside 0 1 h0 h1 (covers h), inside 1 0 h1 h0 (covers h)⟩) [s1, s2, s3]).1⟩

/-- The theorems about rows apply. -/
example : ∃ W σ, Yields dC 0 W (B.apply 0 1 (Box.Has ⟨2, 6, 2, 4, 1, 4⟩) σ) (updateRows dC B ⟨2, 6, 2, 4, 1, 4⟩ W 0 1) := by
  obtain ⟨W, hV, h0, h1⟩ := GK.Demo.world ⟨8, 6, 6⟩ ⟨32, 32, 32⟩ (by decide) (by decide)
  obtain ⟨σ, hσ⟩ := Thr.exists_store hL hV
  exact ⟨W, σ, C67_rows_local_partial hL ⟨8, 6, 6⟩ ⟨8, 6, 6⟩ ⟨32, 32, 32⟩ ⟨32, 32, 32⟩ (by decide) (by decide) (.inr rfl) rfl rfl B local' _ W hV 0 1 (by decide) h0 h1 (by decide) (by decide)
    σ hσ fun x y z h => inside 0 1 h0 h1 h⟩

/-- A sweep in place: the order of the cells matters. -/
example : ∃ W σ, Yields dC 0 W (B.cells 0 0 (Box.cells ⟨2, 6, 2, 4, 1, 4⟩) σ) (updateRows dC B ⟨2, 6, 2, 4, 1, 4⟩ W 0 0) := by
  obtain ⟨W, hV, h0, -⟩ := GK.Demo.world ⟨8, 6, 6⟩ ⟨32, 32, 32⟩ (by decide) (by decide)
  obtain ⟨σ, hσ⟩ := Thr.exists_store hL hV
  exact ⟨W, σ, C67_rows_partial hL ⟨8, 6, 6⟩ ⟨8, 6, 6⟩ ⟨32, 32, 32⟩ ⟨32, 32, 32⟩ (by decide) (by decide) (.inr rfl) rfl rfl B _ W hV 0 0 h0 h0 (by decide) (by decide)
    σ hσ fun x y z h => inside 0 0 h0 h0 h⟩

/-- The theorem about copies of accessors applies. -/
example : ∃ W, Valid dC 0 W ∧ ∃ (A : Pair) (T : Nat → Walker (BitVec 32)) (p p' : Access),
    Kernel.next ⟨false, .write 1 1 7 .done, 2, 254⟩ dC.L A (T 0) = some p ∧
    Kernel.next (⟨false, .write 1 1 7 .done, 2, 254⟩ : Kernel (BitVec 32)) dC.L A (T 1) = some p' ∧ p.Conflict p' := by
  obtain ⟨W, hV, h0, h1⟩ := GK.Demo.world ⟨40, 40, 256⟩ ⟨256, 256, 256⟩ (by decide) (by decide)
  obtain ⟨σ, hσ⟩ := Thr.exists_store hL hV
  obtain ⟨ids, idt, T, h, p, p', -, -, -, q⟩ := (C67_false_copies hL ⟨false, .write 1 1 7 .done, 2, 254⟩ rfl 0 1 ⟨40, 40, 256⟩ ⟨40, 40, 256⟩
    ⟨256, 256, 256⟩ ⟨256, 256, 256⟩ (by decide) (by decide) (.inr rfl) ⟨1, 2, 1⟩ ⟨4, 2, 1⟩ W hV h0 h1 (by decide) (by decide) σ hσ
    ⟨inGrid 1 _ h1 _ _ _ _ _ (.inr ⟨rfl, by decide⟩) (by decide), trivial⟩).2 1 1 7 .done rfl (by decide) (by decide)
  exact ⟨W, hV, _, T, p, p', q⟩

/-- The theorem about planes of the wrong size applies. -/
example : ∃ W, Valid aC 0 W ∧ ∃ (σ : Loc → BitVec 32) (sched : List Nat) (ret : _), update aC ⟨true, .write 0 0 7 .done, 0, 2⟩ ⟨1, 1, 1⟩ ⟨1, 1, 1⟩ sched W 0 1 = some ret ∧
    Yields aC 0 W (fun l => if l = ⟨1, 2, 2, 0, 0, 0⟩ ∨ l = ⟨1, 2, 34, 0, 0, 0⟩ then 7 else σ l) ret := by
  obtain ⟨W, hV, h0, h1⟩ := world true ⟨20, 20, 20⟩ ⟨60, 60, 60⟩ ⟨32, 32, 32⟩ ⟨64, 64, 64⟩ (by decide) (by decide) (by decide) (by decide)
  obtain ⟨σ, hσ⟩ := Thr.exists_store (C := aC) hL hV
  exact ⟨W, hV, σ, C67_false_plane (C := aC) hL rfl 0 1 ⟨20, 20, 20⟩ ⟨60, 60, 60⟩ ⟨32, 32, 32⟩ ⟨64, 64, 64⟩ (by decide) (by decide) rfl W hV h0 h1
    (by decide) (by decide) σ hσ 0 0 ⟨_, rfl, by decide⟩ 7⟩

/-- The theorem about rows of different lengths applies. -/
example : ∃ W, Valid aC 0 W ∧ ∃ σ : Loc → BitVec 32, Yields aC 0 W (fun l => if l = ⟨1, 32, 0, 0, 0, 0⟩ then 7 else σ l)
    (updateRows aC (.write 0 0 7 .done) ⟨0, 1, 1, 2, 0, 1⟩ W 0 1) := by
  obtain ⟨W, hV, h0, h1⟩ := world true ⟨20, 20, 20⟩ ⟨60, 60, 60⟩ ⟨32, 32, 32⟩ ⟨64, 64, 64⟩ (by decide) (by decide) (by decide) (by decide)
  obtain ⟨σ, hσ⟩ := Thr.exists_store (C := aC) hL hV
  exact ⟨W, hV, σ, C67_false_rows (C := aC) hL rfl 0 1 ⟨20, 20, 20⟩ ⟨60, 60, 60⟩ ⟨32, 32, 32⟩ ⟨64, 64, 64⟩ (by decide) (by decide) W hV h0 h1
    (by decide) (by decide) σ hσ 0 0 ⟨_, rfl, by decide⟩ 7⟩

/-- The launch parameters of the example, for its first and last sizes (examples/lbm/util.h:34). -/
example : blockWidth 32 = 32 ∧ dimGrid 32 = ⟨1, 16, 1⟩ ∧ blockWidth 160 = 128 ∧ dimGrid 160 = ⟨1, 80, 1⟩ := by decide

end Demo

end LFA.Line
