import Verif.Adaptive
import Verif.Props.Grid2
import Verif.Props.SoaArray
import Verif.Props.SoaVector
import Verif.Props.DataPtr

/-
  C85: programs that decide what to do next by what they have observed.
-/
set_option linter.unusedSectionVars false
namespace LFA.Props
open LFA

section
variable {V : Type} [DecidableEq V] {C : Cfg V} {L : Layout V} {dv : V} {ρ : Type}

/-- C85, grids: a client that respects the contracts whatever it observes has no undefined behaviour, and its result is one that plain 3D
    arrays allow. -/
theorem C85_grid_partial (hL : C.L.WF) (p : Prog (Op V) (Out V) ρ) (hp : p.Safe (Spec.Pre C) (Spec.Post C dv) Spec.start) :
    ∃ w r a, p.exec (fun w op => World.step C w op) World.init = .ok (w, r) ∧ p.Allows (Spec.Post C dv) Spec.start r a := by
  obtain ⟨w, r, a, h1, h2, -⟩ := Prog.exec_refines (R := R C) (fun op hR h => step_refines hL dv hR op h) p R.init hp
  exact ⟨w, r, a, h1, h2⟩

/-- C85, grids whose buffers are also handed over. -/
theorem C85_pointer (hL : C.L.WF) (p : Prog (PtrOp V) (Out V) ρ) (hp : p.Safe (Spec.PtrPre C) (Spec.PtrPost C dv) Spec.ptrStart) :
    ∃ w r a, p.exec (fun w op => PtrWorld.step C w op) PtrWorld.init = .ok (w, r) ∧ p.Allows (Spec.PtrPost C dv) Spec.ptrStart r a := by
  obtain ⟨w, r, a, h1, h2, -⟩ := Prog.exec_refines (R := PtrR C) (fun op hR h => ptr_step_refines hL dv hR op h) p (PtrR.init C) hp
  exact ⟨w, r, a, h1, h2⟩

/-- C85, vectors. -/
theorem C85_vector_partial (hL : C.L.WF) (h1 : OneD C.tr) (hr : Roomy C.tr) (p : Prog (VecOp V) (ArrOut V) ρ)
    (hp : p.Safe (VecList.Pre C) (fun a op a' out => VecList.Post C dv a op a' out) VecList.start) :
    ∃ w r σ, p.exec (fun w op => VecWorld.step C w op) VecWorld.init = .ok (w, r) ∧
      p.Allows (fun a op a' out => VecList.Post C dv a op a' out) VecList.start r σ := by
  obtain ⟨w, r, a, k1, k2, -⟩ := Prog.exec_refines (R := fun w σ => ∃ τ, VR C w τ ∧ VL C τ σ)
    (step := fun w op => VecWorld.step C w op) (Pre := VecList.Pre C) (Post := fun a op a' out => VecList.Post C dv a op a' out)
    (fun op hR h => by
      obtain ⟨τ, hR, hl⟩ := hR
      obtain ⟨τ', out, σ', e1, e2, e3⟩ := list_step h1 hr dv hR hl op h
      obtain ⟨w', e4, e5⟩ := vec_step_refines hL h1 dv hR op e1
      exact ⟨w', out, σ', e4, e2, τ', e5, e3⟩) p ⟨_, VR.init, VL.init⟩ hp
  exact ⟨w, r, a, k1, k2⟩

/-- The same for arrays; there the specification is a function, which fails if the client breaks a contract. -/
def arrAllowed (L : Layout V) : Prog (ArrOp V) (ArrOut V) ρ → ArrSpec.State V → Option (ArrSpec.State V × ρ)
  | .ret r, σ => some (σ, r)
  | .call op k, σ =>
    match ArrSpec.step L σ op with
    | none => none
    | some (σ', out) => arrAllowed L (k out) σ'

theorem arrAllowed_bind {ρ' : Type} (f : ρ → Prog (ArrOp V) (ArrOut V) ρ') :
    ∀ (p : Prog (ArrOp V) (ArrOut V) ρ) (σ : ArrSpec.State V),
      arrAllowed L (p.bind f) σ = (arrAllowed L p σ).bind fun q => arrAllowed L (f q.2) q.1
  | .ret r, σ => rfl
  | .call op k, σ => by
    simp only [Prog.bind, arrAllowed]
    cases ArrSpec.step L σ op with
    | none => rfl
    | some q => exact arrAllowed_bind f (k q.2) q.1

theorem arr_exec_refines (hL : L.WF) (dv : V) : ∀ (p : Prog (ArrOp V) (ArrOut V) ρ) {w : ArrWorld V} {σ σ' : ArrSpec.State V} {r : ρ},
    ArrR L w σ → arrAllowed L p σ = some (σ', r) →
    ∃ w', p.exec (fun w op => ArrWorld.step L w op) w = .ok (w', r) ∧ ArrR L w' σ'
  | .ret r', w, σ, σ', r, hR, h => by cases h; exact ⟨w, rfl, hR⟩
  | .call op k, w, σ, σ', r, hR, h => by
    rw [arrAllowed] at h
    cases e : ArrSpec.step L σ op with
    | none => rw [e] at h; cases h
    | some q =>
      rw [e] at h
      obtain ⟨w1, h1, h2⟩ := arr_step_refines hL dv hR e
      obtain ⟨w', k1, k2⟩ := arr_exec_refines hL dv (k q.2) h2 h
      exact ⟨w', by rw [Prog.exec, h1]; exact k1, k2⟩

/-- C85, arrays: a client which respects the contracts on lists gets from soa_arrays the result it gets from lists. -/
theorem C85_array (hL : L.WF) (dv : V) (p : Prog (ArrOp V) (ArrOut V) ρ) {σ : ArrSpec.State V} {r : ρ}
    (h : arrAllowed L p ArrSpec.start = some (σ, r)) :
    ∃ w, p.exec (fun w op => ArrWorld.step L w op) ArrWorld.init = .ok (w, r) := by
  obtain ⟨w, h1, -⟩ := arr_exec_refines hL dv p (ArrR.init L) h
  exact ⟨w, h1⟩

/-- Every list of calls is a client, which returns all it observed. -/
def clientOf {Op Out : Type} : List Op → List Out → Prog Op Out (List Out)
  | [], outs => .ret outs.reverse
  | op :: ops, outs => .call op fun out => clientOf ops (out :: outs)

theorem clientOf_safe : ∀ (ops : List (PtrOp V)) {σ : Spec.PtrState V} (outs : List (Out V)), Spec.PtrLegal C dv σ ops →
    (clientOf ops outs).Safe (Spec.PtrPre C) (Spec.PtrPost C dv) σ
  | [], _, _, _ => trivial
  | _ :: ops, _, outs, h => ⟨h.1, fun σ' out hp => clientOf_safe ops (out :: outs) (h.2 σ' out hp)⟩

example := C85_pointer (C := demoC) demoL_WF _ (clientOf_safe Demo.ptrOps [] Demo.ptrOps_legal)

/-! ### Clients that branch -/

/-- Creates a grid; if that did not throw it asks for the dimensions, and reads the last cell if there is one. -/
def lastCell (s : Nat) (d : Ext) (t : Cell V) : Prog (Op V) (Out V) (Option (Cell V)) :=
  .call (.new s d) fun
    | .unit => .call (.dims s) fun
      | .triple e => if 0 < e.x ∧ 0 < e.y ∧ 0 < e.z then
          .call (.get s (e.x - 1) (e.y - 1) (e.z - 1) [t]) fun
            | .cells [c] => .ret (some c)
            | _ => .ret none
        else .ret none
      | _ => .ret none
    | _ => .ret none

/-- The dimensions and sizes are arbitrary: whether the constructor throws and whether there are cells is found out by the client. -/
theorem lastCell_safe {a : AWorld V} {s : Nat} (hs : a s = .absent) (d : Ext) (t : Cell V) :
    (lastCell s d t).Safe (Spec.Pre C) (Spec.Post C dv) a := by
  refine ⟨hs, fun a1 out h => ?_⟩
  have key : ∀ {a : AWorld V}, a s ≠ .absent → Prog.Safe (Spec.Pre C) (Spec.Post C dv) (.call (.dims s) fun
      | .triple e => if 0 < e.x ∧ 0 < e.y ∧ 0 < e.z then
          .call (.get s (e.x - 1) (e.y - 1) (e.z - 1) [t]) fun
            | .cells [c] => .ret (some c)
            | _ => .ret none
        else .ret none
      | _ => .ret none) a := by
    intro a ha
    refine ⟨ha, fun a2 out h => ?_⟩
    cases h with
    | dims _ g hg =>
      simp only
      split
      · rename_i hp
        refine ⟨⟨g, hg, ?_, ?_, ?_⟩, fun a3 out _ => ?_⟩
        · simp only [List.length_singleton]; omega
        · omega
        · omega
        · cases out with
          | cells l =>
            cases l with
            | nil => trivial
            | cons c l => cases l <;> trivial
          | _ => trivial
      · trivial
    | dimsBlank =>
      simp only
      rw [if_neg (by omega)]
      trivial
  cases h with
  | newBlank => exact key (by simp [World.upd])
  | new => exact key (by simp [World.upd])
  | newFail => trivial

example (d : Ext) := C85_grid_partial (C := demoC) (dv := 0) demoL_WF _ (lastCell_safe (s := 0) rfl d demoCell)

/-- Creates a vector; if that did not throw it asks for the size, and reads the last element if there is one. -/
def lastElement (s n : Nat) (t : Cell V) : Prog (VecOp V) (ArrOut V) (Option (Cell V)) :=
  .call (.new s n) fun
    | .unit => .call (.size s) fun
      | .nat m => if 0 < m then
          .call (.get s (m - 1) t) fun
            | .cells [c] => .ret (some c)
            | _ => .ret none
        else .ret none
      | _ => .ret none
    | _ => .ret none

theorem lastElement_safe (hT : ArrSpec.trivial C.L = true) {σ : VecList.State V} {s : Nat} (hs : σ s = none) (n : Nat) (t : Cell V) :
    (lastElement s n t).Safe (VecList.Pre C) (fun a op a' out => VecList.Post C dv a op a' out) σ := by
  refine ⟨⟨hs, .inl hT⟩, fun a1 out h => ?_⟩
  simp only [VecList.Post, VecList.Alloc] at h
  split at h
  · obtain ⟨rfl, -⟩ := h; trivial
  · obtain ⟨rfl, rfl⟩ := h
    refine ⟨⟨_, upd_self _ _ _⟩, fun a2 out h => ?_⟩
    obtain ⟨l, hl, rfl, rfl⟩ := h
    simp only
    split
    · rename_i hp
      refine ⟨⟨l, hl, by omega⟩, fun a3 out h => ?_⟩
      obtain ⟨l', c, -, -, rfl, -⟩ := h
      trivial
    · trivial

example (n : Nat) := C85_vector_partial (dv := 0) vecC_WF vecC_one vecC_roomy _ (lastElement_safe (C := vecC) rfl (s := 0) rfl n demoCell)

/-! ### Loops over all elements -/

/-- `for (i = 0; i < a.size(); ++i) acc = f(acc, a[i])`; elements are read into a copy of `t`. -/
def foldLoop (s : Nat) (t : Cell V) (f : ρ → Cell V → ρ) (z : ρ) : Prog (ArrOp V) (ArrOut V) ρ :=
  .call (.size s) fun
    | .nat n => Prog.loop (fun i acc => .call (.get s (i : Nat) t) fun
        | .cells [c] => .ret (f acc c)
        | _ => .ret acc) n 0 z
    | _ => .ret z

/-- C85, a loop that reads all elements: it computes the fold over the list, and changes nothing. -/
theorem C85_array_fold {w : ArrWorld V} {s N : Nat} {l : List (Cell V)} (h : ListIs L w s N l)
    (t : Cell V) (f : ρ → Cell V → ρ) (z : ρ) :
    (foldLoop s t f z).exec (fun w op => ArrWorld.step L w op) w = .ok (w, (l.map fun c => overlay L c t).foldl f z) := by
  have key : ∀ (n b : Nat) (z : ρ), b + n = l.length →
      Prog.exec (fun w op => ArrWorld.step L w op) (Prog.loop (fun i acc => .call (.get s (i : Nat) t) fun
        | .cells [c] => .ret (f acc c)
        | _ => .ret acc) n b z) w = .ok (w, ((l.drop b).map fun c => overlay L c t).foldl f z) := by
    intro n
    induction n with
    | zero => intro b z h; rw [List.drop_of_length_le (by omega)]; rfl
    | succ n ih =>
      intro b z hb
      have hb' : b < l.length := by omega
      have hg := h.get b l[b] (List.getElem?_eq_getElem hb') t
      rw [Prog.loop, Prog.exec_bind _ _ _ (s' := w) (r := f z (overlay L l[b] t)) (by simp only [Prog.exec, hg])]
      rw [ih (b + 1) _ (by omega), List.drop_eq_getElem_cons hb']
      rfl
  rw [foldLoop, Prog.exec]
  simp only [h.size]
  exact key l.length 0 z (by omega)

/-- `for (i = 0; i < a.size(); ++i) { c = a[i]; if (q(c)) b << c; }` -/
def filterLoop (s s' : Nat) (t : Cell V) (q : Cell V → Bool) : Prog (ArrOp V) (ArrOut V) Unit :=
  .call (.size s) fun
    | .nat n => Prog.loop (fun i _ => .call (.get s (i : Nat) t) fun
        | .cells [c] => if q c then .call (.push s' c) fun _ => .ret () else .ret ()
        | _ => .ret ()) n 0 ()
    | _ => .ret ()

theorem filterLoop_spec {s s' N M : Nat} (hne : s ≠ s') {l : List (Cell V)} (t : Cell V) (q : Cell V → Bool) {σ : ArrSpec.State V}
    {m : List (Cell V)} (hs : σ s = some (N, l)) (hm : σ s' = some (M, m))
    (hfit : m.length + ((l.map fun c => overlay L c t).filter q).length ≤ M) :
    ∃ σ', arrAllowed L (filterLoop s s' t q) σ = some (σ', ()) ∧ σ' s = some (N, l) ∧
      σ' s' = some (M, m ++ (l.map fun c => overlay L c t).filter q) := by
  have key : ∀ (n b : Nat) (σ : ArrSpec.State V) (m : List (Cell V)), b + n = l.length → σ s = some (N, l) → σ s' = some (M, m) →
      m.length + (((l.drop b).map fun c => overlay L c t).filter q).length ≤ M →
      ∃ σ', arrAllowed L (Prog.loop (fun i _ => .call (.get s (i : Nat) t) fun
        | .cells [c] => if q c then .call (.push s' c) fun _ => .ret () else .ret ()
        | _ => .ret ()) n b ()) σ = some (σ', ()) ∧ σ' s = some (N, l) ∧
      σ' s' = some (M, m ++ ((l.drop b).map fun c => overlay L c t).filter q) := by
    intro n
    induction n with
    | zero =>
      intro b σ m h hs hm _
      rw [List.drop_of_length_le (by omega)]
      exact ⟨σ, rfl, hs, by simpa using hm⟩
    | succ n ih =>
      intro b σ m h hs hm hf
      have hb : b < l.length := by omega
      have hg : ArrSpec.step L σ (.get s (b : Nat) t) = some (σ, .cells [overlay L l[b] t]) := by
        simp only [ArrSpec.step, hs, Int.toNat_natCast, List.getElem?_eq_getElem hb]
        rw [if_neg (by omega)]
      rw [Prog.loop, arrAllowed_bind]
      rw [List.drop_eq_getElem_cons hb, List.map_cons, List.filter_cons] at hf
      rw [List.drop_eq_getElem_cons hb, List.map_cons, List.filter_cons]
      simp only [arrAllowed, hg]
      by_cases hq : q (overlay L l[b] t) = true
      · rw [if_pos hq] at hf
        have hp : ArrSpec.step L σ (.push s' (overlay L l[b] t)) =
            some (ArrWorld.upd σ s' (some (M, m ++ [overlay L l[b] t])), .unit) := by
          simp only [ArrSpec.step, hm]
          rw [if_pos (by simp only [List.length_cons] at hf; omega)]
        obtain ⟨σ', k1, k2, k3⟩ := ih (b + 1) (ArrWorld.upd σ s' (some (M, m ++ [overlay L l[b] t]))) (m ++ [overlay L l[b] t])
          (by omega) (by simp only [ArrWorld.upd, if_neg hne, hs]) (by simp only [ArrWorld.upd, if_true])
          (by simp only [List.length_cons, List.length_append, List.length_nil] at hf ⊢; omega)
        refine ⟨σ', ?_, k2, ?_⟩
        · simp only [hq, if_true, arrAllowed, hp, Option.bind_some]
          exact k1
        · rw [k3, if_pos hq, List.append_assoc]; rfl
      · rw [if_neg hq] at hf
        obtain ⟨σ', k1, k2, k3⟩ := ih (b + 1) σ m (by omega) hs hm hf
        refine ⟨σ', ?_, k2, by rw [k3, if_neg hq]⟩
        simp only [hq, Bool.false_eq_true, if_false, arrAllowed, Option.bind_some]
        exact k1
  have hz : ArrSpec.step L σ (.size s) = some (σ, .nat l.length) := by simp only [ArrSpec.step, hs]
  rw [filterLoop, arrAllowed, hz]
  exact key l.length 0 σ m (by omega) hs hm hfit

/-- Lists that agree on the registered members describe the same array. -/
theorem ListIs.congr_maps {w : ArrWorld V} {s N : Nat} {l l' : List (Cell V)} (h : ListIs L w s N l)
    (he : ∀ t, (l.map fun c => overlay L c t) = l'.map fun c => overlay L c t) : ListIs L w s N l' := by
  have hlen (t : Cell V) : l.length = l'.length := by simpa using congrArg List.length (he t)
  refine ⟨h.cap, ?_, fun i c hc t => ?_⟩
  · rw [h.size]
    cases l' with
    | nil =>
      cases l with
      | nil => rfl
      | cons c l => exact absurd (hlen c) (by simp)
    | cons c l' => rw [hlen c]
  · have e := congrArg (fun m => m[i]?) (he t)
    simp only [List.getElem?_map, hc, Option.map_some] at e
    cases e2 : l[i]? with
    | none => rw [e2] at e; cases e
    | some c2 =>
      rw [e2] at e
      injection e with e
      rw [h.get i c2 e2 t, show overlay L c2 t = overlay L c t from e]

theorem ListIs.maps {w : ArrWorld V} {s N N' : Nat} {l l' : List (Cell V)} (h : ListIs L w s N l) (h' : ListIs L w s N' l') (t : Cell V) :
    (l.map fun c => overlay L c t) = l'.map fun c => overlay L c t := by
  obtain ⟨-, e, k⟩ := h.agree h'
  apply List.ext_getElem (by simpa using e)
  intro i h1 h2
  simp only [List.getElem_map]
  simp only [List.length_map] at h1 h2
  exact k i _ _ (List.getElem?_eq_getElem h1) (List.getElem?_eq_getElem h2) t

theorem arr_of_listIs (hL : L.WF) {w : ArrWorld V} {σ : ArrSpec.State V} (hR : ArrR L w σ) {s N : Nat} {l : List (Cell V)}
    (h : ListIs L w s N l) : ∃ N' l', σ s = some (N', l') ∧ ListIs L w s N' l' := by
  obtain ⟨a, ha, -, -⟩ := h.exists
  cases e : σ s with
  | none => rw [hR.absent e] at ha; cases ha
  | some q =>
    obtain ⟨a', ha', hrep⟩ := hR.arr (N := q.1) (l := q.2) e
    exact ⟨q.1, q.2, rfl, ListIs.of_rep hL ha' hrep⟩

/-- C85, a loop that looks at each element of one array and adds some of them to another one: afterwards the other array has,
    behind its old elements, exactly those elements for which the test held, in order; all that is needed is that they fit. -/
theorem C85_array_filter (hL : L.WF) (dv : V) {w : ArrWorld V} (hV : ArrValid L w) {s s' N M : Nat} (hne : s ≠ s') {l l' : List (Cell V)}
    (h : ListIs L w s N l) (h' : ListIs L w s' M l') (t : Cell V) (q : Cell V → Bool)
    (hfit : l'.length + ((l.map fun c => overlay L c t).filter q).length ≤ M) :
    ∃ w', (filterLoop s s' t q).exec (fun w op => ArrWorld.step L w op) w = .ok (w', ()) ∧ ListIs L w' s N l ∧
      ListIs L w' s' M (l' ++ (l.map fun c => overlay L c t).filter q) := by
  obtain ⟨σ, hR⟩ := hV.refines hL dv
  obtain ⟨N0, l0, hs, hl⟩ := arr_of_listIs hL hR h
  obtain ⟨M0, l0', hs', hl'⟩ := arr_of_listIs hL hR h'
  obtain ⟨rfl, -, -⟩ := h.agree hl
  obtain ⟨rfl, len', -⟩ := h'.agree hl'
  have e := h.maps hl t
  rw [e, len'] at hfit
  obtain ⟨σ', k1, k2, k3⟩ := filterLoop_spec hne t q hs hs' hfit
  obtain ⟨w', e1, hR'⟩ := arr_exec_refines hL dv _ hR k1
  obtain ⟨a, ha, hrep⟩ := hR'.arr k2
  obtain ⟨a', ha', hrep'⟩ := hR'.arr k3
  refine ⟨w', e1, (ListIs.of_rep hL ha hrep).congr_maps fun u => hl.maps h u, (ListIs.of_rep hL ha' hrep').congr_maps fun u => ?_⟩
  rw [List.map_append, List.map_append, e, hl'.maps h' u]

/-- `demoArr` ends with three elements in array 0 and two in array 1, with capacity 2; a third array is added. -/
theorem loops_demo : ∃ w l l', ArrValid demoL w ∧ ListIs demoL w 0 4 l ∧ l.length = 3 ∧ ListIs demoL w 2 5 l' ∧ l'.length = 1 := by
  obtain ⟨w, h1, hR⟩ := arr_run_refines demoL_WF 0 (demoArr ++ [.new 2 5 1 demoCell]) (ArrR.init demoL) (σ' := _) (outs := _) rfl
  obtain ⟨a, ha, hrep⟩ := hR.arr (s := 0) rfl
  obtain ⟨a', ha', hrep'⟩ := hR.arr (s := 2) rfl
  exact ⟨w, _, _, ⟨_, _, _, rfl, h1⟩, ListIs.of_rep demoL_WF ha hrep, rfl, ListIs.of_rep demoL_WF ha' hrep', rfl⟩

example : ∃ w, ∃ l : List (Cell Int), (foldLoop 0 demoCell (fun (n : Int) c => n + c 0 0) 0).exec (fun w op => ArrWorld.step demoL w op) w =
    .ok (w, (l.map fun c => overlay demoL c demoCell).foldl (fun n c => n + c 0 0) 0) ∧ l.length = 3 := by
  obtain ⟨w, l, l', -, h, k, -⟩ := loops_demo
  exact ⟨w, l, C85_array_fold h _ _ _, k⟩

example : ∃ w w', ∃ l l' : List (Cell Int), (filterLoop 0 2 demoCell fun c => decide (c 0 0 = 5)).exec (fun w op => ArrWorld.step demoL w op) w = .ok (w', ()) ∧
    ListIs demoL w' 2 5 (l' ++ (l.map fun c => overlay demoL c demoCell).filter fun c => decide (c 0 0 = 5)) ∧ l.length = 3 := by
  obtain ⟨w, l, l', hV, h, k, h', k'⟩ := loops_demo
  obtain ⟨w', e1, -, e3⟩ := C85_array_filter demoL_WF 0 hV (by decide) h h' demoCell (fun c => decide (c 0 0 = 5)) (by
    have := List.length_filter_le (fun c : Cell Int => decide (c 0 0 = 5)) (l.map fun c => overlay demoL c demoCell)
    rw [List.length_map] at this
    omega)
  exact ⟨w, w', l, l', e1, e3, k⟩

/-- A client that fills an array and then adds up what it reads. -/
example := C85_array demoL_WF 0
  (.call (.new 0 4 2 demoCell) fun _ => foldLoop 0 demoCell (fun (n : Int) c => n + c 0 0) 0 : Prog (ArrOp Int) (ArrOut Int) Int)
  (r := 2) rfl

end
end LFA.Props
