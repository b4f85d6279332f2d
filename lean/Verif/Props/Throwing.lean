import Verif.ThrowingProof
import Verif.Demo

/-
  C63: exceptions thrown by member objects.
-/
set_option linter.unusedSectionVars false
namespace LFA
namespace Throwing
open Thr

variable {V : Type} [DecidableEq V] {C : Cfg V} {dv : V}

/-- The call assigns to the locations in `ts`, in that order. If an assignment throws then the program is still in a valid state: all grids
    exist and have kept their dimensions, all assignments before the exception are in effect, and nothing else has changed. -/
def Recovers (C : Cfg V) (dv : V) (w : World V) (op : Op V) (ts : List (Loc × V)) : Prop :=
  ∀ (σ : Loc → V), (∀ l, InGrid C w l → ValueIs C w l (σ l)) → ∀ (n : Nat) (u : Option V),
    ∃ ow, step C w n u op = .ok ow ∧
      (ow.isSome ↔ ∃ t m, ts[n]? = some t ∧ C.L[t.1.r]? = some m ∧ m.ty.triv = false) ∧
      ∀ w', ow = some w' → Valid C dv w' ∧ (∀ t d, DimsAre C w' t d ↔ DimsAre C w t d) ∧
        ∀ l, InGrid C w l → ValueIs C w' l (left σ ts n u l)

/-- The call assigns to the locations in `ts`, in that order, if nothing throws. -/
def Completes (C : Cfg V) (dv : V) (w : World V) (op : Op V) (ts : List (Loc × V)) : Prop :=
  ∀ (σ : Loc → V), (∀ l, InGrid C w l → ValueIs C w l (σ l)) →
    ∃ w', w.step C op = .ok (w', .unit) ∧ Valid C dv w' ∧ ∀ l, InGrid C w l → ValueIs C w' l (after σ ts l)

theorem valueIs_of (hL : C.L.WF) {w : World V} {a : AWorld V} (hR : R C w a) {l : Loc} (hl : InA C a l) : ValueIs C w l (valA dv a l) := by
  have := peek_step (dv := dv) hL hR (p := ⟨l.s, l.x, l.y, l.z, 0, 0, 0, l.r, l.k⟩) (by simpa [Ref.loc] using hl)
  simpa [ValueIs, Ref.loc] using this

theorem valueIs_eq {w : World V} {l : Loc} {v v' : V} (h : ValueIs C w l v) (h' : ValueIs C w l v') : v = v' := by
  unfold ValueIs at h h'
  rw [h] at h'
  simpa using h'

theorem after_congr {σ σ' : Loc → V} {l : Loc} (h : σ l = σ' l) (ts : List (Loc × V)) : after σ ts l = after σ' ts l := by
  induction ts generalizing σ σ' with
  | nil => exact h
  | cons t ts ih =>
    refine ih ?_
    by_cases hl : l = t.1
    · rw [if_pos hl, if_pos hl]
    · rw [if_neg hl, if_neg hl]; exact h

theorem left_congr {σ σ' : Loc → V} {l : Loc} (h : σ l = σ' l) (ts : List (Loc × V)) (n : Nat) (u : Option V) :
    left σ ts n u l = left σ' ts n u l := by
  unfold left
  cases ts[n]? with
  | none => exact after_congr h _
  | some t =>
    cases u with
    | none => exact after_congr h _
    | some v =>
      simp only
      by_cases hl : l = t.1
      · rw [if_pos hl, if_pos hl]
      · rw [if_neg hl, if_neg hl]; exact after_congr h _

theorem dims_g {w w' : World V} (h : w'.g = w.g) (t : Nat) (d : Ext) : DimsAre C w' t d ↔ DimsAre C w t d := by
  unfold DimsAre
  simp only [World.step, World.withG, h]
  cases w.g t <;> simp

section
variable {w : World V} {a : AWorld V} {s : Nat} {g : Grid} {id : Nat} {b : Block V} {e : Ext} {src : Block V → Block V}
  {ops : List (MemOp V)} {ts : List (Loc × V)}

/-- From the buffer of one grid to the state of the program. -/
theorem onBuffer_ok (hL : C.L.WF) (hV : Valid C dv w) (hR : R C w a) (hg : w.g s = some g) (hid : g.data = some id) (hb : w.h.blk id = some b)
    (hsel : selectSizes C.tr g.dim = .ok e) (H : List.Forall₂ (Does C dv w a s id e src ts) ops ts) {σ : Loc → V}
    (hσ : ∀ l, InGrid C w l → ValueIs C w l (σ l)) (n : Nat) (u : Option V) :
    ∃ oh, onBuffer g.data src ops n u w.h = .ok oh ∧
      (oh.isSome ↔ ∃ t m, ts[n]? = some t ∧ C.L[t.1.r]? = some m ∧ m.ty.triv = false) ∧
      ∀ h', oh = some h' → Valid C dv ⟨h', w.g⟩ ∧ (∀ t d, DimsAre C ⟨h', w.g⟩ t d ↔ DimsAre C w t d) ∧
        ∀ l, InGrid C w l → ValueIs C ⟨h', w.g⟩ l (left σ ts n u l) := by
  obtain ⟨ob, k1, k2, k3⟩ := upTo_ok hL hV hR hg hid hb hsel H n u
  refine ⟨ob.map fun b' => w.h.set id b', ?_, by simpa using k2, ?_⟩
  · unfold onBuffer
    simp only [hid, hb, k1]
    rfl
  · intro h' hh
    cases ob with
    | none => cases hh
    | some b' =>
      cases hh
      obtain ⟨a', j1, j2, j3, j4⟩ := k3 b' rfl
      refine ⟨j1, dims_g rfl, fun l hl => ?_⟩
      have hla := (inA_iff hR l).2 hl
      have := valueIs_of (dv := dv) hL j2 ((j3 l).2 hla)
      rw [j4 l hla, left_congr (σ' := σ) (valueIs_eq (valueIs_of hL hR hla) (hσ l hl))] at this
      exact this

/-- All operations. -/
theorem all_ok (hL : C.L.WF) (hV : Valid C dv w) (hR : R C w a) (hg : w.g s = some g) (hid : g.data = some id) (hb : w.h.blk id = some b)
    (hsel : selectSizes C.tr g.dim = .ok e) (H : List.Forall₂ (Does C dv w a s id e src ts) ops ts) {σ : Loc → V}
    (hσ : ∀ l, InGrid C w l → ValueIs C w l (σ l)) :
    ∃ b', runL (exec src) ops b = .ok b' ∧ Valid C dv ⟨w.h.set id b', w.g⟩ ∧
        ∀ l, InGrid C w l → ValueIs C ⟨w.h.set id b', w.g⟩ l (after σ ts l) := by
  obtain ⟨b', a', k1, k2, k3, k4, k5⟩ := prefix_ok hL hV hR hg hid hb hsel H ops.length (Nat.le_refl _)
  rw [List.take_length] at k1
  refine ⟨b', k1, k2, fun l hl => ?_⟩
  have hla := (inA_iff hR l).2 hl
  have := valueIs_of (dv := dv) hL k3 ((k4 l).2 hla)
  rw [k5 l hla, List.take_of_length_le (by rw [H.length_eq]), after_congr (σ' := σ) (valueIs_eq (valueIs_of hL hR hla) (hσ l hl))] at this
  exact this

theorem callback_recovers (hL : C.L.WF) (hV : Valid C dv w) (hR : R C w a) {ag : AGrid V} (has : a s = .grid ag) {op : Op V}
    {ops : Ext → List (MemOp V)}
    (hstep : ∀ g n u, w.g s = some g → step C w n u op = (callback C g ops src n u w.h).map (Option.map fun h => ⟨h, w.g⟩))
    (H : ∀ id e, selectSizes C.tr ag.dim = .ok e → List.Forall₂ (Does C dv w a s id e src ts) (ops e) ts) : Recovers C dv w op ts := by
  intro σ hσ n u
  obtain ⟨g, hg, h1, e, id, b, h2, h3, h4, -⟩ := hR.grid has
  rw [← h1] at h2
  obtain ⟨oh, k1, k2, k3⟩ := onBuffer_ok hL hV hR hg h3 h4 h2 (H id e (h1 ▸ h2)) hσ n u
  refine ⟨oh.map fun h => ⟨h, w.g⟩, ?_, by simpa using k2, ?_⟩
  · rw [hstep g n u hg]
    unfold callback
    simp only [h2, k1]
    rfl
  · intro w' hw'
    cases oh with
    | none => cases hw'
    | some h' => cases hw'; exact k3 h' rfl

theorem callback_completes (hL : C.L.WF) (hV : Valid C dv w) (hR : R C w a) {ag : AGrid V} (has : a s = .grid ag) {op : Op V}
    {ops : Ext → List (MemOp V)} {f : Ext → Block V → Except UB (Block V)}
    (hstep : ∀ g, w.g s = some g → w.step C op = w.ofH (fun _ => .unit) (g.callbackMut C f w.h))
    (hf : ∀ e b, f e b = runL (exec src) (ops e) b)
    (H : ∀ id e, selectSizes C.tr ag.dim = .ok e → List.Forall₂ (Does C dv w a s id e src ts) (ops e) ts) : Completes C dv w op ts := by
  intro σ hσ
  obtain ⟨g, hg, h1, e, id, b, h2, h3, h4, -⟩ := hR.grid has
  rw [← h1] at h2
  obtain ⟨b', k1, k2, k3⟩ := all_ok hL hV hR hg h3 h4 h2 (H id e (h1 ▸ h2)) hσ
  refine ⟨⟨w.h.set id b', w.g⟩, ?_, k2, k3⟩
  rw [hstep g hg]
  simp only [Grid.callbackMut, h2, LFA.onBuffer, h3, h4, hf, k1, World.ofH]

end

theorem runL_exec (src : Block V → Block V) {ops : List (MemOp V)} (h : ∀ o ∈ ops, ∀ sa A ty, o ≠ .copy sa A ty) (sb b : Block V) :
    runL (exec src) ops b = runL (MemOp.exec sb) ops b := by
  induction ops generalizing b with
  | nil => rfl
  | cons o ops ih =>
    simp only [runL]
    have : exec src o b = o.exec sb b := by
      have := h o List.mem_cons_self
      unfold exec
      cases o with
      | copy sa A ty => exact absurd rfl (this sa A ty)
      | _ => rfl
    rw [this]
    cases o.exec sb b with
    | error u => rfl
    | ok b' => exact ih (fun o ho => h o (List.mem_cons_of_mem _ ho)) b'

theorem setList_run (L : Layout V) (e : Ext) (stride : Nat) (cells : List (Cell V)) (x y z n : Nat) (src : Block V → Block V) (b : Block V) :
    setFunctor L e stride cells x y z n b = runL (exec src) (setList L e stride cells x y z n) b := by
  rw [setFunctor_run L e stride cells x y z n b b]
  refine (runL_exec src ?_ b b).symm
  intro o ho sa A ty
  rw [List.mem_flatMap] at ho
  obtain ⟨i, -, ho⟩ := ho
  unfold setOpsAt at ho
  split at ho
  · rw [List.mem_singleton] at ho; subst ho; simp
  · unfold setOps at ho
    rw [List.mem_map] at ho
    obtain ⟨q, -, rfl⟩ := ho
    simp

theorem loadList_run (L : Layout V) (e : Ext) (sb : Block V) (n : Nat) (ss : List Streak) (off : Nat) (b : Block V) :
    loadFunctor L e sb n ss off b = runL (exec fun _ => sb) (loadList L e n ss off) b := by
  induction ss generalizing off b with
  | nil => rfl
  | cons st ss ih =>
    show (Acc.loadRaw L _ _ _ _ _ b).bind _ = _
    rw [loadRaw_run]
    unfold loadList
    rw [runL_append]
    show (runL (exec fun _ => sb) _ b).bind _ = _
    cases runL (exec fun _ => sb) _ b with
    | error u => rfl
    | ok b' => exact ih _ b'

theorem copyList_run (L : Layout V) (d es et : Ext) (src : Block V → Block V) (b : Block V) :
    copyFunctor L d es et src b = runL (exec src) (copyList L d es et) b := by
  unfold copyFunctor copyList
  refine loopM_runL (fun z _ b => loopM_runL (fun y _ b => ?_) b) b
  unfold Acc.copyMembers
  refine members_runL L (fun r m s ha => ?_) (fun r m n s ha => ?_) b
  · simp only [ha]
    rw [map_eq_flatMap]
    exact loopM_runL (fun i _ s => by rw [runL_one]; simp only [copyOp, ha]; rfl) s
  · simp only [ha]
    refine loopM_runL (fun k _ s => ?_) s
    rw [map_eq_flatMap]
    exact loopM_runL (fun i _ s => by rw [runL_one]; simp only [copyOp, ha]; rfl) s

/-! ### C63, calls which assign to members -/

section
variable {w : World V} {s : Nat} {d : Ext}

/-- Structs of a list, as a function. -/
def nth (cells : List (Cell V)) (dv : V) (i : Nat) : Cell V := (cells[i]?).getD fun _ _ => dv

theorem nth_some (cells : List (Cell V)) (dv : V) (j : Nat) (hj : j < cells.length) : cells[j]? = some (nth cells dv j) := by
  unfold nth
  rw [List.getElem?_eq_getElem hj]; rfl

theorem C63_set_partial (hL : C.L.WF) (hV : Valid C dv w) (hd : DimsAre C w s d) {x y z : Nat} (cells : List (Cell V))
    (hx : x + cells.length ≤ d.x) (hy : y < d.y) (hz : z < d.z) :
    Recovers C dv w (.set s x y z cells) (setWrites C.L s x y z cells.length (nth cells dv)) ∧
      Completes C dv w (.set s x y z cells) (setWrites C.L s x y z cells.length (nth cells dv)) := by
  obtain ⟨a, hR⟩ := hV.refines hL
  obtain ⟨ag, has, rfl⟩ := hR.of_dims hd (by rintro rfl; simp at hy)
  have H : ∀ (src : Block V → Block V) ts id e, selectSizes C.tr ag.dim = .ok e → List.Forall₂ (Does C dv w a s id e src ts)
      (setList C.L e 1 cells x y z cells.length) (setWrites C.L s x y z cells.length (nth cells dv)) := fun src ts id e _ =>
    setList_does (src := src) hL has (fun j hj => by rw [Nat.mul_one]; exact nth_some cells dv j hj) hx hy hz
  exact ⟨callback_recovers (src := fun b => b) hL hV hR has (fun g n u hg => by simp only [step, step.onGrid, hg]) (H _ _),
    callback_completes (src := fun b => b) hL hV hR has (fun g hg => by simp only [World.step, World.withG, hg, Grid.set])
      (fun e b => setList_run C.L e 1 cells x y z cells.length (fun b => b) b) (H _ _)⟩

theorem C63_broadcast_partial (hL : C.L.WF) (hV : Valid C dv w) (hd : DimsAre C w s d) {x y z : Nat} (cell : Cell V) (count : Nat)
    (hx : x + count ≤ d.x) (hy : y < d.y) (hz : z < d.z) :
    Recovers C dv w (.broadcast s x y z cell count) (setWrites C.L s x y z count fun _ => cell) ∧
      Completes C dv w (.broadcast s x y z cell count) (setWrites C.L s x y z count fun _ => cell) := by
  obtain ⟨a, hR⟩ := hV.refines hL
  obtain ⟨ag, has, rfl⟩ := hR.of_dims hd (by rintro rfl; simp at hy)
  have H : ∀ (src : Block V → Block V) ts id e, selectSizes C.tr ag.dim = .ok e → List.Forall₂ (Does C dv w a s id e src ts)
      (setList C.L e 0 [cell] x y z count) (setWrites C.L s x y z count fun _ => cell) := fun src ts id e _ =>
    setList_does (src := src) hL has (fun j hj => rfl) hx hy hz
  exact ⟨callback_recovers (src := fun b => b) hL hV hR has (fun g n u hg => by simp only [step, step.onGrid, hg]) (H _ _),
    callback_completes (src := fun b => b) hL hV hR has (fun g hg => by simp only [World.step, World.withG, hg, Grid.broadcast])
      (fun e b => setList_run C.L e 0 [cell] x y z count (fun b => b) b) (H _ _)⟩

theorem C63_load_partial (hL : C.L.WF) (hV : Valid C dv w) (hd : DimsAre C w s d) (hne : d ≠ ⟨0, 0, 0⟩) {ss : List Streak} {sb : Block V}
    {count : Nat} {rows : List (Cell V)} (hin : ∀ st ∈ ss, Spec.StreakIn d st) (hrows : rows.length = (Spec.coords ss).length)
    (hcount : (Spec.coords ss).length ≤ count) (hp : Spec.Packed C.L count rows sb) :
    Recovers C dv w (.load s ss sb count) (loadWrites C.L s (nth rows dv) ss 0) ∧
      Completes C dv w (.load s ss sb count) (loadWrites C.L s (nth rows dv) ss 0) := by
  obtain ⟨a, hR⟩ := hV.refines hL
  obtain ⟨ag, has, rfl⟩ := hR.of_dims hd hne
  have H : ∀ ts id e, selectSizes C.tr ag.dim = .ok e → List.Forall₂ (Does C dv w a s id e (fun _ => sb) ts)
      (loadList C.L e count ss 0) (loadWrites C.L s (nth rows dv) ss 0) := fun ts id e _ =>
    loadList_does hL has hp (fun j hj => nth_some rows dv j hj) (by omega) ss 0 hin (by omega)
  exact ⟨callback_recovers (src := fun _ => sb) hL hV hR has (fun g n u hg => by simp only [step, step.onGrid, hg]) (H _),
    callback_completes hL hV hR has (fun g hg => by simp only [World.step, World.withG, hg, Grid.load])
      (fun e b => loadList_run C.L e sb count ss 0 b) (H _)⟩

/-- `operator=` between grids of the same dimensions. -/
theorem C63_assign_partial (hL : C.L.WF) (hV : Valid C dv w) {t : Nat} (hs : DimsAre C w s d) (ht : DimsAre C w t d) (hne : d ≠ ⟨0, 0, 0⟩)
    {cells : Nat → Nat → Nat → Cell V} (hc : ∀ x y z, InDim d x y z → CellIs C w t x y z (cells x y z)) :
    Recovers C dv w (.assign s t) (copyWrites C.L s d cells) ∧ Completes C dv w (.assign s t) (copyWrites C.L s d cells) := by
  obtain ⟨a, hR⟩ := hV.refines hL
  obtain ⟨ag, has, rfl⟩ := hR.of_dims hs hne
  obtain ⟨o, hat, hdim⟩ := hR.of_dims ht hne
  have hcw : copyWrites C.L s ag.dim cells = copyWrites C.L s ag.dim o.cells := by
    unfold copyWrites
    refine List.flatMap_congr fun z hz => List.flatMap_congr fun y hy => List.flatMap_congr fun p hp => List.map_congr_left fun x hx => ?_
    rw [List.mem_range] at hx hy hz
    rw [objects_eq, List.mem_map] at hp
    obtain ⟨q, hq, rfl⟩ := hp
    obtain ⟨hm, hk⟩ := mem_memKeys hq
    have hin : InDim o.dim x y z := by rw [hdim]; exact ⟨hx, hy, hz⟩
    simp only
    rw [(hR.cellIs_iff hL hat hin _).1 (hc x y z (by rw [← hdim]; exact hin)) q.1 q.2.1 q.2.2 hm hk]
  rw [hcw]
  obtain ⟨g, hg, hgok⟩ := hR.grid has
  obtain ⟨og, hog, hook⟩ := hR.grid hat
  obtain ⟨h1, e, id, b, h2, h3, h4, -⟩ := hgok
  obtain ⟨o1, e', id', b', o2, o3, o4, -⟩ := hook
  rw [hdim, h2] at o2; cases o2
  have hsame : g.dim = og.dim := by rw [h1, o1, hdim]
  have hH := copyList_does (dv := dv) hL hR hg h3 has hog hat hdim.symm h2
  constructor
  · intro σ hσ n u
    obtain ⟨oh, k1, k2, k3⟩ := onBuffer_ok hL hV hR hg h3 h4 (h1 ▸ h2) hH hσ n u
    refine ⟨oh.map fun h => ⟨h, w.g⟩, ?_, by simpa using k2, ?_⟩
    · have hc0 : constructed C g og.dim = 0 := by unfold constructed; rw [if_pos ⟨by rw [hsame], by rw [hsame], by rw [hsame]⟩]
      have hrs := resize_same (C := C) (h := w.h) (g := g) (d := og.dim) hsame
      have hci : copyIn C g og n u w.h = .ok oh := by
        unfold copyIn
        rw [hsame, o1, hdim, h2]
        rw [← h1] at *
        simp only [o3, Option.map_some, o4, ne_eq, not_true_eq_false, or_self, if_false]
        rw [o3] at k1
        rw [k1]
        cases C.asym <;> rfl
      simp only [step, hg, hog, assign, hc0, Nat.not_lt_zero, if_false, hrs, Nat.sub_zero, hci]
      simp only [Except.map, Option.map_map, Function.comp_def, Except.ok.injEq]
      rw [← hg, upd_id]
    · intro w' hw'
      cases oh with
      | none => cases hw'
      | some h' => cases hw'; exact k3 h' rfl
  · intro σ hσ
    obtain ⟨b2, k1, k2, k3⟩ := all_ok hL hV hR hg h3 h4 (h1 ▸ h2) hH hσ
    refine ⟨⟨w.h.set id b2, w.g⟩, ?_, k2, k3⟩
    rw [← copyList_run] at k1
    have hrs := resize_same (C := C) (h := w.h) (g := g) (d := og.dim) hsame
    have hci : g.copyIn C og w.h = .ok () (g, w.h.set id b2) := by
      unfold Grid.copyIn Grid.dualCallback
      rw [← hsame, h1, h2]
      simp only [o3, Option.map_some, o4, ne_eq, not_true_eq_false, or_self, if_false]
      rw [o3] at k1
      simp only [LFA.onBuffer, h3, h4]
      rw [h3] at k1
      rw [k1]
      cases C.asym <;> rfl
    simp only [World.step, World.withG, hg, hog, Grid.assign, hrs, Res.bind, hci, World.ofGS]
    rw [← hg, upd_id]

end
/-! ### Failed construction -/

section
variable {src : Block V → Block V}

theorem destroy_noNT {b b' : Block V} {A : Int} {ty : Ty} (h : b.destroy A ty = .ok b') {x n : Nat} (hn : b.NoNT x n) : b'.NoNT x n := by
  unfold Block.destroy at h
  split at h
  · split at h
    · cases h; exact hn
    · split at h
      · cases h
        intro i hi
        unfold Block.wipe
        simp only
        split
        · rfl
        · exact hn i hi
      · cases h
  · cases h

/-- Destroying an object which does not exist. -/
theorem destroy_fails {ops : List (MemOp V)} (hops : ∀ o ∈ ops, ∃ A ty, o = .destroy A ty) {A : Int} {ty : Ty} (hty : ty.triv = false)
    (hsz : 0 < ty.size) (hmem : MemOp.destroy A ty ∈ ops) {b : Block V} (hb : b.NoNT A.toNat ty.size) :
    ∃ ub, runL (exec src) ops b = .error ub := by
  induction ops generalizing b with
  | nil => cases hmem
  | cons o ops ih =>
    simp only [runL]
    cases hx : exec src o b with
    | error ub => exact ⟨ub, rfl⟩
    | ok b' =>
      obtain ⟨A', ty', rfl⟩ := hops o List.mem_cons_self
      rcases List.mem_cons.1 hmem with heq | htl
      · cases heq
        exfalso
        have hx' : b.destroy A ty = .ok b' := hx
        unfold Block.destroy at hx'
        rw [hty] at hx'
        simp only [Bool.false_eq_true, if_false, Block.rd_none_of_noNT hsz hty hb, Option.isSome_none] at hx'
        split at hx' <;> cases hx'
      · exact ih (fun o ho => hops o (List.mem_cons_of_mem _ ho)) htl (destroy_noNT hx hb)

/-- The destructor call for a constructor call. -/
def undo : MemOp V → MemOp V
  | .construct A ty _ => .destroy A ty
  | o => o

theorem destroyList_eq (L : Layout V) (d e : Ext) : destroyList L d e = (constructList L d e).map undo := by
  unfold destroyList constructList
  simp only [List.map_flatMap]
  refine List.flatMap_congr fun z _ => List.flatMap_congr fun y _ => List.flatMap_congr fun x _ => ?_
  unfold destroyOps constructOps
  rw [List.map_map]
  rfl

theorem mem_constructList {L : Layout V} {d e : Ext} {o : MemOp V} (h : o ∈ constructList L d e) :
    ∃ (A : Int) (r : Nat) (m : Member V), o = .construct A m.ty m.dflt ∧ L[r]? = some m := by
  unfold constructList at h
  simp only [List.mem_flatMap] at h
  obtain ⟨z, -, y, -, x, -, h⟩ := h
  unfold constructOps at h
  rw [List.mem_map] at h
  obtain ⟨q, hq, rfl⟩ := h
  exact ⟨_, q.1, q.2.1, rfl, (mem_memKeys hq).1⟩

theorem constructList_run (L : Layout V) (d e : Ext) (b : Block V) :
    constructFunctor L d e b = runL (exec src) (constructList L d e) b := by
  have := host_cells (L := L) (d := d) (e := e) (src := b) (f := fun A b => A.constructMembers L b) (fun A b' => constructOps_run L A b b') b
  unfold constructFunctor
  rw [this]
  have hl : ((cellList d).flatMap fun c => constructOps L (accAt e (genIndex e c.1 c.2.1 c.2.2))) = constructList L d e := by
    unfold cellList constructList
    simp only [List.flatMap_assoc, List.flatMap_map]
  rw [hl]
  refine (runL_exec src ?_ b b).symm
  intro o ho sa A ty
  obtain ⟨A', r, m, rfl, -⟩ := mem_constructList ho
  simp

theorem destroyList_run (L : Layout V) (d e : Ext) (b : Block V) :
    destroyFunctor L d e b = runL (exec src) (destroyList L d e) b := by
  have := host_cells (L := L) (d := d) (e := e) (src := b) (f := fun A b => A.destroyMembers L b) (fun A b' => destroyOps_run L A b b') b
  unfold destroyFunctor
  rw [this]
  have hl : ((cellList d).flatMap fun c => destroyOps L (accAt e (genIndex e c.1 c.2.1 c.2.2))) = destroyList L d e := by
    unfold cellList destroyList
    simp only [List.flatMap_assoc, List.flatMap_map]
  rw [hl]
  refine (runL_exec src ?_ b b).symm
  intro o ho sa A ty
  rw [destroyList_eq, List.mem_map] at ho
  obtain ⟨o', ho', rfl⟩ := ho
  obtain ⟨A', r, m, rfl, -⟩ := mem_constructList ho'
  simp [undo]

/-- What is left if a constructor throws: the buffer can not be cleaned up by the destructor of the grid. -/
theorem construct_upTo (hL : C.L.WF) {d e : Ext} {n : Nat} {u : Option V} {b b' : Block V}
    (h : upTo src (constructList C.L d e) n u b = .ok (some b')) : ∃ ub, destroyFunctor C.L d e b' = .error ub := by
  unfold upTo at h
  cases ho : (constructList C.L d e)[n]? with
  | none => rw [ho] at h; cases h
  | some o =>
    rw [ho] at h
    have hmem := List.mem_of_getElem? ho
    obtain ⟨A, r, m, rfl, hm⟩ := mem_constructList hmem
    simp only [objTy] at h
    have htr : m.ty.triv = false := by
      cases hty : m.ty with
      | mk sz tr => cases tr with
        | false => rfl
        | true => rw [hty] at h; cases h
    have h' : ((runL (exec src) ((constructList C.L d e).take n) b).bind (failed src u (.construct A m.ty m.dflt))).map some = .ok (some b') := by
      revert h
      cases hty : m.ty with
      | mk sz tr =>
        rw [hty] at htr
        simp only at htr
        subst htr
        exact fun h => h
    cases hrun : runL (exec src) ((constructList C.L d e).take n) b with
    | error ub => rw [hrun] at h'; cases h'
    | ok b1 =>
      rw [hrun] at h'
      have h2 : (failed src u (.construct A m.ty m.dflt) b1).map some = .ok (some b') := h'
      unfold failed at h2
      cases hex : exec src (.construct A m.ty m.dflt) b1 with
      | error ub => rw [hex] at h2; cases h2
      | ok b2 =>
        rw [hex] at h2
        have hb : b1 = b' := by
          have : ((Except.ok b1 : Except UB (Block V)).map some) = .ok (some b') := by
            cases u <;> exact h2
          simpa [Except.map] using this
        subst hb
        have hnt : b1.NoNT A.toNat m.ty.size := by
          have hex' : b1.construct A m.ty m.dflt = .ok b2 := hex
          unfold Block.construct at hex'
          split at hex'
          · split at hex'
            · rename_i hnn
              exact (Block.noNT_iff _ _ _).1 hnn
            · cases hex'
          · cases hex'
        rw [destroyList_run (src := src), destroyList_eq]
        refine destroy_fails (A := A) (ty := m.ty) ?_ htr (hL.size_pos hm) ?_ hnt
        · intro o ho
          rw [List.mem_map] at ho
          obtain ⟨o', ho', rfl⟩ := ho
          obtain ⟨A', r', m', rfl, -⟩ := mem_constructList ho'
          exact ⟨A', m'.ty, rfl⟩
        · rw [List.mem_map]
          exact ⟨_, hmem, rfl⟩

end

/-- A constructor which throws in `resize`: the grid it leaves behind can not be destroyed. -/
theorem resize_spoils (hL : C.L.WF) {g g' : Grid} {d : Ext} {n : Nat} {u : Option V} {h h' : Heap V}
    (hr : resize C g d n u h = .ok (some (g', h'))) : ∃ ub, g'.destroyAndDeallocate C h' = .ub ub := by
  unfold resize at hr
  split at hr
  · cases hr
  · split at hr
    · cases hr
    · cases hr
    · rename_i h1 hdd
      split at hr
      · cases hr
      · rename_i e hsel
        simp only [onBuffer, Heap.alloc, if_true] at hr
        cases hup : upTo (fun b => b) (constructList C.L d e) n u (Block.fresh (byteSizeOf C.L e)) with
        | error ub => rw [hup] at hr; cases hr
        | ok ob =>
          rw [hup] at hr
          cases ob with
          | none => cases hr
          | some b' =>
            cases hr
            obtain ⟨ub, hub⟩ := construct_upTo hL hup
            refine ⟨ub, ?_⟩
            simp only [Grid.destroyAndDeallocate, Grid.callbackMut, hsel, LFA.onBuffer, Heap.set, if_true, hub, Res.bind]

/-- C63 fails for `resize`: whenever the constructor of a member throws in `resize`, the program can not even destroy the grid without
    undefined behaviour. -/
theorem C63_false_resize (hL : C.L.WF) {w w' : World V} {s : Nat} {d : Ext} {n : Nat} {u : Option V}
    (h : step C w n u (.resize s d) = .ok (some w')) : ∃ ub, w'.step C (.destroy s) = .error ub := by
  simp only [step] at h
  cases hg : w.g s with
  | none => rw [hg] at h; cases h
  | some g =>
    rw [hg] at h
    simp only at h
    cases hr : resize C g d n u w.h with
    | error ub => rw [hr] at h; cases h
    | ok o =>
      rw [hr] at h
      cases o with
      | none => cases h
      | some p =>
        cases h
        obtain ⟨ub, hub⟩ := resize_spoils hL (g' := p.1) (h' := p.2) hr
        refine ⟨ub, ?_⟩
        simp only [World.step, World.withG, World.upd, if_true, Grid.dtor, hub]

/-- Number of objects in a grid. -/
theorem constructList_length (L : Layout V) (d e : Ext) : (constructList L d e).length = d.x * d.y * d.z * (objects L).length := by
  have hc : ∀ A : Acc, (constructOps L A).length = (objects L).length := by
    intro A
    unfold constructOps
    rw [List.length_map, objects_eq, List.length_map]
  unfold constructList
  simp only [List.length_flatMap, hc, List.map_const', List.sum_replicate_nat, List.length_range]
  ring

/-- C63 fails for `operator=` between grids of different dimensions: likewise, if the constructor of a member throws. -/
theorem C63_false_assign (hL : C.L.WF) {w w' : World V} {s t : Nat} {ds dt : Ext} (hs : DimsAre C w s ds) (ht : DimsAre C w t dt) (hne : ds ≠ dt)
    {n : Nat} {u : Option V} (hn : n < dt.x * dt.y * dt.z * (objects C.L).length)
    (h : step C w n u (.assign s t) = .ok (some w')) : ∃ ub, w'.step C (.destroy s) = .error ub := by
  simp only [step] at h
  cases hg : w.g s with
  | none => rw [hg] at h; cases h
  | some g =>
    cases ho : w.g t with
    | none => rw [hg, ho] at h; cases h
    | some other =>
      rw [hg, ho] at h
      simp only at h
      have hgd : g.dim = ds := by simpa [DimsAre, World.step, World.withG, hg] using hs
      have hod : other.dim = dt := by simpa [DimsAre, World.step, World.withG, ho] using ht
      have hne' : ¬ (g.dim.x = other.dim.x ∧ g.dim.y = other.dim.y ∧ g.dim.z = other.dim.z) := by
        rw [hgd, hod]
        rintro ⟨h1, h2, h3⟩
        exact hne (by cases ds; cases dt; simp_all)
      have key : ∀ p, assign C g other n u w.h = .ok (some p) → resize C g other.dim n u w.h = .ok (some p) := by
        intro p hp
        unfold assign at hp
        cases hsel : selectSizes C.tr other.dim with
        | error x =>
          exfalso
          unfold constructed Grid.resize at hp
          simp only [if_neg hne', hsel, Nat.not_lt_zero, if_false] at hp
          cases hdd : g.destroyAndDeallocate C w.h with
          | ub e => rw [hdd] at hp; cases hp
          | throw x h' => rw [hdd] at hp; cases hp
          | ok x h' => rw [hdd] at hp; cases hp
        | ok e =>
          have hc : n < constructed C g other.dim := by
            unfold constructed
            rw [if_neg hne', hsel]
            simp only [constructList_length, hod]
            exact hn
          simp only [if_pos hc] at hp
          exact hp
      cases hr : assign C g other n u w.h with
      | error ub => rw [hr] at h; cases h
      | ok o =>
        rw [hr] at h
        cases o with
        | none => cases h
        | some p =>
          cases h
          obtain ⟨ub, hub⟩ := resize_spoils hL (g' := p.1) (h' := p.2) (key p hr)
          refine ⟨ub, ?_⟩
          simp only [World.step, World.withG, World.upd, if_true, Grid.dtor, hub]

/-! ### Leaks -/

/-- The buffer `id` exists, but no grid refers to it. -/
def Lost (w : World V) (id : Nat) (b : Block V) : Prop :=
  w.h.blk id = some b ∧ id < w.h.next ∧ ∀ t g, w.g t = some g → g.data ≠ some id

/-- A heap which has the buffer `id` in common with `h`. -/
def Keeps (id : Nat) (h h' : Heap V) : Prop := h'.blk id = h.blk id ∧ h.next ≤ h'.next

theorem Keeps.trans {id : Nat} {h h' h'' : Heap V} (a : Keeps id h h') (b : Keeps id h' h'') : Keeps id h h'' :=
  ⟨b.1.trans a.1, a.2.trans b.2⟩

theorem Keeps.refl (id : Nat) (h : Heap V) : Keeps id h h := ⟨rfl, Nat.le_refl _⟩

theorem Keeps.set {id id' : Nat} (hne : id' ≠ id) (h : Heap V) (b : Block V) : Keeps id h (h.set id' b) :=
  ⟨by simp [Heap.set, Ne.symm hne], Nat.le_refl _⟩

theorem Keeps.alloc {id : Nat} {h : Heap V} (hlt : id < h.next) (n : Nat) : Keeps id h (h.alloc n).2 :=
  ⟨by simp [Heap.alloc, Nat.ne_of_lt hlt], by simp [Heap.alloc]⟩

/-- The heap after a call, whether it returns or throws. -/
def Res.heap {σ α : Type} : Res σ α → Option σ
  | .ok _ s => some s
  | .throw _ s => some s
  | .ub _ => none

section
variable {id : Nat} {h h' : Heap V} {g g' : Grid}

theorem onBuffer_keeps {data : Option Nat} {f : Block V → Except UB (Block V)} (hd : data ≠ some id)
    (hr : Res.heap (LFA.onBuffer data f h) = some h') : Keeps id h h' := by
  unfold LFA.onBuffer at hr
  split at hr
  · split at hr <;> cases hr
    exact Keeps.refl _ _
  · split at hr
    · cases hr
    · split at hr <;> cases hr
      exact Keeps.set (fun h => hd (by rw [h])) _ _

theorem callbackMut_keeps {f : Ext → Block V → Except UB (Block V)} (hd : g.data ≠ some id)
    (hr : Res.heap (g.callbackMut C f h) = some h') : Keeps id h h' := by
  unfold Grid.callbackMut at hr
  split at hr
  · cases hr; exact Keeps.refl _ _
  · exact onBuffer_keeps hd hr

theorem dad_keeps (hd : g.data ≠ some id) (hr : Res.heap (g.destroyAndDeallocate C h) = some h') : Keeps id h h' := by
  unfold Grid.destroyAndDeallocate at hr
  split at hr
  · cases hr; exact Keeps.refl _ _
  · rename_i id' hid'
    cases hcb : g.callbackMut C (fun e => destroyFunctor C.L g.dim e) h with
    | ub u => rw [hcb] at hr; cases hr
    | throw x h1 =>
      rw [hcb] at hr
      simp only [Res.bind, Res.heap, Option.some.injEq] at hr
      subst hr
      exact callbackMut_keeps hd (by rw [hcb]; rfl)
    | ok x h1 =>
      have k1 : Keeps id h h1 := callbackMut_keeps hd (by rw [hcb]; rfl)
      rw [hcb] at hr
      simp only [Res.bind] at hr
      refine k1.trans ?_
      split at hr
      · cases hr
      · unfold Heap.dealloc at hr
        split at hr
        · cases hr
        · split at hr
          · cases hr
            refine ⟨?_, Nat.le_refl _⟩
            have : id ≠ id' := fun h => hd (by rw [hid', h])
            simp [this]
          · cases hr

theorem resize_keeps {d : Ext} (hlt : id < h.next) (hd : g.data ≠ some id) (hr : Res.heap (g.resize C d h) = some (g', h')) :
    Keeps id h h' ∧ g'.data ≠ some id := by
  unfold Grid.resize at hr
  split at hr
  · cases hr; exact ⟨Keeps.refl _ _, hd⟩
  · cases hdd : g.destroyAndDeallocate C h with
    | ub u => rw [hdd] at hr; cases hr
    | throw x h1 =>
      have k1 : Keeps id h h1 := dad_keeps hd (by rw [hdd]; rfl)
      rw [hdd] at hr; cases hr
      exact ⟨k1, hd⟩
    | ok x h1 =>
      have k1 : Keeps id h h1 := dad_keeps hd (by rw [hdd]; rfl)
      have hlt1 : id < h1.next := Nat.lt_of_lt_of_le hlt k1.2
      rw [hdd] at hr
      simp only [Res.withGrid, Res.bind] at hr
      split at hr
      · cases hr; exact ⟨k1, hd⟩
      · rename_i e hsel
        have hne : some h1.next ≠ some id := by simp only [ne_eq, Option.some.injEq]; omega
        have k2 := Keeps.alloc hlt1 (byteSizeOf C.L e)
        generalize hgg : ({ g with dim := d, ex := some e.x, ey := some e.y, ez := some e.z, bs := some (byteSizeOf C.L e), data := some (h1.alloc (byteSizeOf C.L e)).1 } : Grid) = g2 at hr
        have hg2 : g2.data ≠ some id := by rw [← hgg]; exact hne
        cases hi : g2.init C (h1.alloc (byteSizeOf C.L e)).2 with
        | ub u => rw [hi] at hr; cases hr
        | throw x h2 =>
          rw [hi] at hr; cases hr
          exact ⟨(k1.trans k2).trans (callbackMut_keeps hg2 (by unfold Grid.init at hi; rw [hi]; rfl)), hg2⟩
        | ok x h2 =>
          rw [hi] at hr; cases hr
          exact ⟨(k1.trans k2).trans (callbackMut_keeps hg2 (by unfold Grid.init at hi; rw [hi]; rfl)), hg2⟩

theorem copyIn_keeps {other : Grid} (hd : g.data ≠ some id) (hr : Res.heap (g.copyIn C other h) = some (g', h')) :
    Keeps id h h' ∧ g' = g := by
  unfold Grid.copyIn at hr
  have key : ∀ r : Res (Heap V) Unit, Res.heap (Res.withGrid g r) = some (g', h') → g' = g ∧ Res.heap r = some h' := by
    intro r hr
    cases r <;> cases hr <;> exact ⟨rfl, rfl⟩
  obtain ⟨k1, k2⟩ := key _ hr
  refine ⟨?_, k1⟩
  have hgo : ∀ es et, Res.heap (match other.data.map h.blk with
      | some none => Res.ub UB.dangling
      | _ => LFA.onBuffer g.data (copyFunctor C.L g.dim es et (srcBlock h other.data g.data)) h) = some h' → Keeps id h h' := by
    intro es et hh
    split at hh
    · cases hh
    · exact onBuffer_keeps hd hh
  unfold Grid.dualCallback at k2
  split at k2
  · split at k2
    · cases k2; exact Keeps.refl _ _
    · split at k2
      · cases k2; exact Keeps.refl _ _
      · exact hgo _ _ k2
  · split at k2
    · cases k2; exact Keeps.refl _ _
    · split at k2
      · cases k2; exact Keeps.refl _ _
      · exact hgo _ _ k2

end

theorem ofH_lost {α : Type} {w w' : World V} {id : Nat} {b : Block V} (hl : Lost w id b) {out : α → Out V} {r : Res (Heap V) α} {o : Out V}
    (hk : ∀ h', Res.heap r = some h' → Keeps id w.h h') (h : w.ofH out r = .ok (w', o)) : Lost w' id b := by
  have key : ∀ h', Res.heap r = some h' → Lost ⟨h', w.g⟩ id b := fun h' hh =>
    ⟨(hk h' hh).1.trans hl.1, Nat.lt_of_lt_of_le hl.2.1 (hk h' hh).2, hl.2.2⟩
  cases r with
  | ok a h' => cases h; exact key h' rfl
  | throw e h' => cases h; exact key h' rfl
  | ub u => cases h

theorem upd_lost {w : World V} {id : Nat} {b : Block V} (hl : Lost w id b) {h' : Heap V} {s : Nat} {g : Option Grid} (hk : Keeps id w.h h')
    (hg : ∀ g', g = some g' → g'.data ≠ some id) : Lost ⟨h', World.upd w.g s g⟩ id b := by
  refine ⟨hk.1.trans hl.1, Nat.lt_of_lt_of_le hl.2.1 hk.2, fun t g' ht => ?_⟩
  simp only [World.upd] at ht
  split at ht
  · exact hg g' ht
  · exact hl.2.2 t g' ht

theorem ofGS_lost {α : Type} {w w' : World V} {id : Nat} {b : Block V} (hl : Lost w id b) {s : Nat} {out : α → Out V} {r : Res (GS V) α}
    {o : Out V} (hk : ∀ g' h', Res.heap r = some (g', h') → Keeps id w.h h' ∧ g'.data ≠ some id) (h : w.ofGS s out r = .ok (w', o)) :
    Lost w' id b := by
  cases r with
  | ok a p => cases h; exact upd_lost hl (hk _ _ rfl).1 (fun g' hg => by cases hg; exact (hk _ _ rfl).2)
  | throw e p => cases h; exact upd_lost hl (hk _ _ rfl).1 (fun g' hg => by cases hg; exact (hk _ _ rfl).2)
  | ub u => cases h

theorem ofCtor_lost {w w' : World V} {id : Nat} {b : Block V} (hl : Lost w id b) {s : Nat} {r : Res (GS V) Unit} {o : Out V}
    (hk : ∀ g' h', Res.heap r = some (g', h') → Keeps id w.h h' ∧ g'.data ≠ some id) (h : w.ofCtor s r = .ok (w', o)) :
    Lost w' id b := by
  cases r with
  | ok a p => cases h; exact upd_lost hl (hk _ _ rfl).1 (fun g' hg => by cases hg; exact (hk _ _ rfl).2)
  | throw e p =>
    cases h
    have := (hk _ _ rfl).1
    exact ⟨this.1.trans hl.1, Nat.lt_of_lt_of_le hl.2.1 this.2, hl.2.2⟩
  | ub u => cases h

theorem callbackRead_keeps {α : Type} {id : Nat} {g : Grid} {f : Ext → Block V → Except UB α} {h h' : Heap V}
    (hr : Res.heap (g.callbackRead C f h) = some h') : Keeps id h h' := by
  unfold Grid.callbackRead at hr
  split at hr
  · cases hr; exact Keeps.refl _ _
  · split at hr
    · split at hr <;> cases hr
      exact Keeps.refl _ _
    · split at hr
      · cases hr
      · split at hr <;> cases hr
        exact Keeps.refl _ _

/-- A lost buffer stays allocated whatever the program does. -/
theorem Lost.step {w w' : World V} {id : Nat} {b : Block V} (hl : Lost w id b) {op : Op V} {o : Out V}
    (h : w.step C op = .ok (w', o)) : Lost w' id b := by
  have hwith : ∀ {s : Nat} {f : Grid → Except UB (World V × Out V)}, w.withG s f = .ok (w', o) → ∃ g, w.g s = some g ∧ g.data ≠ some id ∧ f g = .ok (w', o) := by
    intro s f hf
    unfold World.withG at hf
    cases hg : w.g s with
    | none => rw [hg] at hf; cases hf
    | some g => rw [hg] at hf; exact ⟨g, rfl, hl.2.2 s g hg, hf⟩
  cases op with
  | new s d =>
    simp only [World.step] at h
    split at h
    · cases h
    · exact ofCtor_lost hl (fun g' h' hr => resize_keeps hl.2.1 (by simp) hr) h
  | copy s t =>
    simp only [World.step] at h
    split at h
    · cases h
    · obtain ⟨other, ho, hod, hf⟩ := hwith h
      refine ofCtor_lost hl (fun g' h' hr => ?_) hf
      unfold Grid.copyCtor at hr
      split at hr
      · cases hr
      · rename_i n hn
        have k1 := Keeps.alloc hl.2.1 n
        have hne : some w.h.next ≠ some id := by
          have := hl.2.1
          simp only [ne_eq, Option.some.injEq]; omega
        simp only at hr
        generalize hgg : ({ dim := other.dim, ex := none, ey := none, ez := none, bs := some n, data := some (w.h.alloc n).1 } : Grid) = g2 at hr
        have hg2 : g2.data ≠ some id := by rw [← hgg]; exact hne
        cases hi : g2.init C (w.h.alloc n).2 with
        | ub u => rw [hi] at hr; cases hr
        | throw x h2 =>
          rw [hi] at hr; cases hr
          exact ⟨k1.trans (callbackMut_keeps hg2 (by unfold Grid.init at hi; rw [hi]; rfl)), hg2⟩
        | ok x h2 =>
          rw [hi] at hr
          simp only [Res.withGrid, Res.bind] at hr
          obtain ⟨k3, rfl⟩ := copyIn_keeps hg2 hr
          exact ⟨(k1.trans (callbackMut_keeps hg2 (by unfold Grid.init at hi; rw [hi]; rfl))).trans k3, hg2⟩
  | assign s t =>
    simp only [World.step] at h
    obtain ⟨g, hg, hd, hf⟩ := hwith h
    obtain ⟨other, ho, hod, hf⟩ := hwith hf
    refine ofGS_lost hl (fun g' h' hr => ?_) hf
    unfold Grid.assign at hr
    cases hrs : g.resize C other.dim w.h with
    | ub u => rw [hrs] at hr; cases hr
    | throw x p =>
      rw [hrs] at hr; cases hr
      exact resize_keeps hl.2.1 hd (by rw [hrs]; rfl)
    | ok x p =>
      rw [hrs] at hr
      have k1 := resize_keeps (g' := p.1) (h' := p.2) hl.2.1 hd (by rw [hrs]; rfl)
      simp only [Res.bind] at hr
      obtain ⟨k3, rfl⟩ := copyIn_keeps k1.2 hr
      exact ⟨k1.1.trans k3, k1.2⟩
  | swap s t =>
    simp only [World.step] at h
    obtain ⟨g, hg, hd, hf⟩ := hwith h
    obtain ⟨g2, hg2, hd2, hf⟩ := hwith hf
    cases hf
    refine ⟨hl.1, hl.2.1, fun t' g' ht => ?_⟩
    simp only [World.upd] at ht
    split at ht
    · cases ht; simpa [Grid.swap, swapExtX, swapDimX] using hd
    · split at ht
      · cases ht; simpa [Grid.swap, swapExtX, swapDimX] using hd2
      · exact hl.2.2 _ _ ht
  | resize s d =>
    simp only [World.step] at h
    obtain ⟨g, hg, hd, hf⟩ := hwith h
    exact ofGS_lost hl (fun g' h' hr => resize_keeps hl.2.1 hd hr) hf
  | destroy s =>
    simp only [World.step] at h
    obtain ⟨g, hg, hd, hf⟩ := hwith h
    cases hdd : g.dtor C w.h with
    | ub u => rw [hdd] at hf; cases hf
    | throw x h1 => rw [hdd] at hf; cases hf
    | ok x h1 =>
      rw [hdd] at hf; cases hf
      have hdd' : g.destroyAndDeallocate C w.h = .ok x h1 := by
        unfold Grid.dtor at hdd
        split at hdd
        · cases hdd
        · exact hdd
      exact upd_lost hl (dad_keeps (C := C) hd (by rw [hdd']; rfl)) (fun g' hg => by cases hg)
  | set s x y z cells =>
    obtain ⟨g, hg, hd, hf⟩ := hwith h
    exact ofH_lost hl (fun h' hr => callbackMut_keeps hd hr) hf
  | broadcast s x y z cell n =>
    obtain ⟨g, hg, hd, hf⟩ := hwith h
    exact ofH_lost hl (fun h' hr => callbackMut_keeps hd hr) hf
  | get s x y z target =>
    obtain ⟨g, hg, hd, hf⟩ := hwith h
    exact ofH_lost hl (fun h' hr => callbackRead_keeps hr) hf
  | load s ss src n =>
    obtain ⟨g, hg, hd, hf⟩ := hwith h
    exact ofH_lost hl (fun h' hr => callbackMut_keeps hd hr) hf
  | save s ss tgt n =>
    obtain ⟨g, hg, hd, hf⟩ := hwith h
    exact ofH_lost hl (fun h' hr => callbackRead_keeps hr) hf
  | poke s x y z X Y Z r k v =>
    obtain ⟨g, hg, hd, hf⟩ := hwith h
    exact ofH_lost hl (fun h' hr => callbackMut_keeps hd hr) hf
  | peek s x y z X Y Z r k =>
    obtain ⟨g, hg, hd, hf⟩ := hwith h
    exact ofH_lost hl (fun h' hr => callbackRead_keeps hr) hf
  | dims s =>
    obtain ⟨g, hg, hd, hf⟩ := hwith h
    cases hf; exact hl
  | extents s =>
    obtain ⟨g, hg, hd, hf⟩ := hwith h
    split at hf <;> cases hf
    exact hl
  | byteSize s =>
    obtain ⟨g, hg, hd, hf⟩ := hwith h
    split at hf <;> cases hf
    exact hl

/-- A lost buffer stays allocated whatever the program does, in particular when it has destroyed all of its grids. -/
theorem Lost.run {id : Nat} {b : Block V} : ∀ {ops : List (Op V)} {w w' : World V} {outs : List (Out V)}, Lost w id b →
    w.run C ops = .ok (w', outs) → Lost w' id b
  | [], w, w', outs, hl, h => by cases h; exact hl
  | op :: ops, w, w', outs, hl, h => by
    simp only [World.run] at h
    cases hs : w.step C op with
    | error u => rw [hs] at h; cases h
    | ok p =>
      rw [hs] at h
      simp only at h
      cases hr : World.run C p.1 ops with
      | error u => rw [hr] at h; cases h
      | ok q =>
        rw [hr] at h
        cases h
        exact Lost.run (hl.step (C := C) (w' := p.1) (o := p.2) hs) hr

/-- A new buffer is not known to any grid of a valid program. -/
theorem lost_new {a : AWorld V} {w : World V} (hR : R C w a) {h : Heap V} {b : Block V} {id : Nat} (hid : id = w.h.next)
    (hb : h.blk id = some b) (hn : id < h.next) : Lost ⟨h, w.g⟩ id b := by
  subst hid
  refine ⟨hb, hn, fun t g ht hd => ?_⟩
  exact absurd (hR.data_lt ht hd) (Nat.lt_irrefl _)

theorem onBuffer_some {id : Nat} {src : Block V → Block V} {ops : List (MemOp V)} {n : Nat} {u : Option V} {h h' : Heap V}
    (hr : onBuffer (some id) src ops n u h = .ok (some h')) : ∃ b, h' = h.set id b := by
  unfold onBuffer at hr
  simp only at hr
  split at hr
  · cases hr
  · rename_i b0 hb0
    cases hu : upTo src ops n u b0 with
    | error e => rw [hu] at hr; cases hr
    | ok o =>
      rw [hu] at hr
      cases o with
      | none => cases hr
      | some b => cases hr; exact ⟨b, rfl⟩

/-- Memory which is allocated for good: the buffer `id` did not exist in `w`, exists in `w'`, and whatever the program does after `w'`
    (for instance, destroy all grids), the buffer is not released. -/
def Leaks (C : Cfg V) (w w' : World V) : Prop :=
  ∃ id b, w.h.blk id = none ∧ ∀ ops w'' outs, w'.run C ops = .ok (w'', outs) → w''.h.blk id = some b

theorem Lost.leaks {w w' : World V} {id : Nat} {b : Block V} (hl : Lost w' id b) (hn : w.h.blk id = none) : Leaks C w w' :=
  ⟨id, b, hn, fun _ _ _ h => (hl.run h).1⟩

/-- C63 fails for the constructor: if the constructor of a member throws, then the memory of the grid leaks. -/
theorem C63_false_new {dv : V} (hL : C.L.WF) {w w' : World V} (hV : Valid C dv w) {s : Nat} {d : Ext} {n : Nat} {u : Option V}
    (h : step C w n u (.new s d) = .ok (some w')) : Leaks C w w' := by
  obtain ⟨a, hR⟩ := hV.refines hL
  simp only [step] at h
  split at h
  · cases h
  · unfold resize at h
    split at h
    · cases h
    · simp only [Grid.destroyAndDeallocate] at h
      split at h
      · cases h
      · rename_i e he
        generalize hr : onBuffer (some (w.h.alloc (byteSizeOf C.L e)).1) (fun b => b) (constructList C.L d e) n u
          (w.h.alloc (byteSizeOf C.L e)).2 = r at h
        cases r with
        | error x => cases h
        | ok o =>
          cases o with
          | none => cases h
          | some h' =>
            cases h
            obtain ⟨b, rfl⟩ := onBuffer_some hr
            refine (lost_new hR (id := w.h.next) (b := b) rfl ?_ ?_).leaks (hR.fresh _ (Nat.le_refl _))
            · simp [Heap.set, Heap.alloc]
            · simp [Heap.set, Heap.alloc]

/-- C63 fails for the copy constructor: if a member throws while it is constructed or copied, then the memory of the grid leaks. -/
theorem C63_false_copy {dv : V} (hL : C.L.WF) {w w' : World V} (hV : Valid C dv w) {s t : Nat} {n : Nat} {u : Option V}
    (h : step C w n u (.copy s t) = .ok (some w')) : Leaks C w w' := by
  obtain ⟨a, hR⟩ := hV.refines hL
  simp only [step] at h
  split at h
  · rename_i other hs ht
    have main : ∀ h', copyCtor C other n u w.h = .ok (some h') → Leaks C w ⟨h', w.g⟩ := by
      intro h' hc
      unfold copyCtor at hc
      split at hc
      · cases hc
      · rename_i size hsz
        simp only at hc
        split at hc
        · cases hc
        · rename_i e he
          split at hc
          · obtain ⟨b, rfl⟩ := onBuffer_some hc
            refine (lost_new hR (id := w.h.next) (b := b) rfl ?_ ?_).leaks (hR.fresh _ (Nat.le_refl _))
            · simp [Heap.set, Heap.alloc]
            · simp [Heap.set, Heap.alloc]
          · split at hc
            · cases hc
            · cases hc
            · rename_i h2 hi
              obtain ⟨b2, k1, k2⟩ : ∃ b, h2.blk w.h.next = some b ∧ w.h.next < h2.next := by
                unfold Grid.init Grid.callbackMut at hi
                split at hi
                · cases hi
                · unfold LFA.onBuffer at hi
                  simp only [Heap.alloc] at hi
                  split at hi
                  · cases hi
                  · split at hi
                    · cases hi
                      rename_i b' _
                      exact ⟨b', by simp [Heap.set], by simp [Heap.set]⟩
                    · cases hi
              have hgo : ∀ (src : Block V → Block V) ops n', onBuffer (some (w.h.alloc size).1) src ops n' u h2 = .ok (some h') →
                  Leaks C w ⟨h', w.g⟩ := by
                intro src ops n' hb
                obtain ⟨b, rfl⟩ := onBuffer_some hb
                refine (lost_new hR (id := w.h.next) (b := b) rfl ?_ ?_).leaks (hR.fresh _ (Nat.le_refl _))
                · simp [Heap.set, Heap.alloc]
                · simpa [Heap.set] using k2
              unfold copyIn at hc
              simp only at hc
              split at hc
              · split at hc
                · split at hc
                  · cases hc
                  · exact hgo _ _ _ hc
                · cases hc
              · split at hc
                · cases hc
                · split at hc
                  · split at hc
                    · cases hc
                    · exact hgo _ _ _ hc
                  · cases hc
    cases hc : copyCtor C other n u w.h with
    | error x => rw [hc] at h; cases h
    | ok o =>
      rw [hc] at h
      cases o with
      | none => cases h
      | some h' => cases h; exact main h' hc
  · cases h

/-! ### Examples

The cells of `demoC` have a std::string as their last member, so that objects 4, 9, 14, … of a grid may throw. -/

example : Recovers demoC 0 demoW (.set 0 1 1 1 [demoCell]) (setWrites demoC.L 0 1 1 1 1 (nth [demoCell] 0)) :=
  (C63_set_partial demoL_WF demo_valid demo_dims0 [demoCell] (by simp) (by simp) (by simp)).1

/-- The exception of the example above does occur. -/
example : ∃ w', step demoC demoW 4 none (.set 0 1 1 1 [demoCell]) = .ok (some w') := by
  obtain ⟨a, hR⟩ := demo_valid.refines demoL_WF
  obtain ⟨ow, h1, h2, _⟩ := (C63_set_partial demoL_WF demo_valid demo_dims0 [demoCell] (x := 1) (y := 1) (z := 1) (by simp) (by simp) (by simp)).1
    (valA 0 a) (fun l hl => valueIs_of demoL_WF hR ((inA_iff hR l).2 hl)) 4 none
  have hs : ow.isSome := h2.2 ⟨(⟨0, 1, 1, 1, 2, 0⟩, 20 + 0 + 1), ⟨⟨32, false⟩, none, -1⟩, rfl, rfl, rfl⟩
  obtain ⟨w', rfl⟩ := Option.isSome_iff_exists.1 hs
  exact ⟨w', h1⟩

theorem demo_new_throws : ∃ w', step demoC World.init 9 none (.new 0 ⟨3, 2, 2⟩) = .ok (some w') := ⟨_, rfl⟩

example : ∃ w', step demoC World.init 9 none (.new 0 ⟨3, 2, 2⟩) = .ok (some w') ∧ Leaks demoC World.init w' := by
  obtain ⟨w', h⟩ := demo_new_throws
  exact ⟨w', h, C63_false_new (dv := 0) demoL_WF ⟨[], [], trivial, rfl⟩ h⟩

/-- A program with two grids in which `resize`, the copy constructor and `operator=` throw. -/
theorem demo_throws : ∃ w, (∃ outs, World.init.run demoC [.new 0 ⟨1, 1, 1⟩, .new 1 ⟨2, 1, 1⟩] = .ok (w, outs)) ∧
    (∃ w', step demoC w 4 none (.resize 0 ⟨1, 2, 1⟩) = .ok (some w')) ∧
    (∃ w', step demoC w 9 none (.copy 2 1) = .ok (some w')) ∧
    (∃ w', step demoC w 9 none (.assign 0 1) = .ok (some w')) :=
  ⟨_, ⟨_, rfl⟩, ⟨_, rfl⟩, ⟨_, rfl⟩, ⟨_, rfl⟩⟩

theorem demo_legal2 : Spec.Legal demoC 0 Spec.start [.new 0 ⟨1, 1, 1⟩, .new 1 ⟨2, 1, 1⟩] :=
  Spec.Legal.new (e := ⟨4, 2, 1⟩) rfl (by decide) rfl (Spec.Legal.new (e := ⟨4, 2, 1⟩) rfl (by decide) rfl Spec.Legal.nil)

example : ∃ w w', Valid demoC 0 w ∧ step demoC w 4 none (.resize 0 ⟨1, 2, 1⟩) = .ok (some w') ∧
    ∃ ub, w'.step demoC (.destroy 0) = .error ub := by
  obtain ⟨w, ⟨outs, h⟩, ⟨w', h1⟩, _, _⟩ := demo_throws
  exact ⟨w, w', ⟨_, outs, demo_legal2, h⟩, h1, C63_false_resize demoL_WF h1⟩

example : ∃ w w', Valid demoC 0 w ∧ step demoC w 9 none (.copy 2 1) = .ok (some w') ∧ Leaks demoC w w' := by
  obtain ⟨w, ⟨outs, h⟩, _, ⟨w', h1⟩, _⟩ := demo_throws
  have hV : Valid demoC 0 w := ⟨_, outs, demo_legal2, h⟩
  exact ⟨w, w', hV, h1, C63_false_copy demoL_WF hV h1⟩

example : ∃ w w', Valid demoC 0 w ∧ step demoC w 9 none (.assign 0 1) = .ok (some w') ∧ ∃ ub, w'.step demoC (.destroy 0) = .error ub := by
  obtain ⟨w, ⟨outs, h⟩, _, _, w', h1⟩ := demo_throws
  have hd : DimsAre demoC w 0 ⟨1, 1, 1⟩ ∧ DimsAre demoC w 1 ⟨2, 1, 1⟩ := by cases h; exact ⟨rfl, rfl⟩
  exact ⟨w, w', ⟨_, outs, demo_legal2, h⟩, h1, C63_false_assign demoL_WF hd.1 hd.2 (by decide) (by decide) h1⟩

end Throwing
end LFA
