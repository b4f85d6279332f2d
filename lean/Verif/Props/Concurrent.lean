import Verif.Props.Adaptive

/-
  C86: threads which use different containers, and containers they only read from.
-/
set_option linter.unusedSectionVars false
namespace LFA.Props
open LFA

section
variable {V : Type} [DecidableEq V] {C : Cfg V} {L : Layout V} {dv : V} {ρ ι : Type} [DecidableEq ι]

/-! ### Arrays -/

/-- Arrays which a call only reads from. -/
def arrReads : ArrOp V → List Nat
  | .copy _ _ t _ => [t]
  | .assign _ t _ => [t]
  | .get s _ _ => [s]
  | .peek s _ _ _ => [s]
  | .back s _ => [s]
  | .load _ t _ _ _ => [t]
  | .append _ t _ _ => [t]
  | .size s => [s]
  | .capacity s => [s]
  | .byteSize s => [s]
  | .iter s _ => [s]
  | _ => []

/-- Arrays which a call may change. -/
def arrWrites : ArrOp V → List Nat
  | .new s _ _ _ => [s]
  | .copy s _ _ _ => [s]
  | .assign s _ _ => [s]
  | .destroy s => [s]
  | .set s _ _ => [s]
  | .poke s _ _ _ _ => [s]
  | .push s _ => [s]
  | .pop s => [s]
  | .clear s => [s]
  | .load s _ _ _ _ => [s]
  | .append s _ _ _ => [s]
  | .swap s t => [s, t]
  | _ => []

/-- The specification of arrays as a relation. -/
def arrPost (L : Layout V) (σ : ArrSpec.State V) (op : ArrOp V) (σ' : ArrSpec.State V) (out : ArrOut V) : Prop :=
  ArrSpec.step L σ op = some (σ', out)

/-- When a call is within its contract. -/
def arrPre (L : Layout V) (σ : ArrSpec.State V) (op : ArrOp V) : Prop := ∃ σ' out, arrPost L σ op σ' out

theorem arr_shape {σ τ σ' : ArrSpec.State V} {op : ArrOp V} {out : ArrOut V}
    (hag : ∀ s, s ∈ arrReads op ∨ s ∈ arrWrites op → τ s = σ s) (h : ArrSpec.step L σ op = some (σ', out)) :
    ArrSpec.step L τ op = some (fun s => if s ∈ arrWrites op then σ' s else τ s, out) ∧ ∀ s, s ∉ arrWrites op → σ' s = σ s := by
  have mk1 : ∀ s x (out : ArrOut V), some (ArrWorld.upd τ s x, out) =
      some ((fun u => if u ∈ [s] then ArrWorld.upd σ s x u else τ u), out) ∧ ∀ u, u ∉ [s] → ArrWorld.upd σ s x u = σ u := by
    intro s x out
    refine ⟨?_, fun u hu => ?_⟩
    · congr 2; funext u
      by_cases hu : u = s <;> simp [ArrWorld.upd, hu]
    · have : u ≠ s := by simpa using hu
      simp [ArrWorld.upd, this]
  have mk2 : ∀ s, τ s = σ s → ∀ (out : ArrOut V), some (τ, out) = some ((fun u => if u ∈ [s] then σ u else τ u), out) ∧
      ∀ u, u ∉ [s] → σ u = σ u := by
    intro s e out
    refine ⟨?_, fun _ _ => rfl⟩
    congr 2; funext u
    by_cases hu : u = s
    · subst hu; simp [e]
    · simp [hu]
  have mk0 : ∀ (out : ArrOut V), some (τ, out) = some ((fun u => if u ∈ ([] : List Nat) then σ u else τ u), out) ∧
      ∀ u, u ∉ ([] : List Nat) → σ u = σ u := fun out => ⟨by congr 2, fun _ _ => rfl⟩
  cases op with
  | new s N n v =>
    have e := hag s (by simp [arrWrites])
    cases hs : σ s with
    | some q => simp only [ArrSpec.step, hs] at h; cases h
    | none =>
      have e' := e.trans hs
      simp only [ArrSpec.step, hs] at h
      simp only [ArrSpec.step, e']
      split at h
      · cases h; rw [if_pos (by assumption)]; exact mk1 s _ _
      · cases h
  | copy s N t cst =>
    have e1 := hag s (by simp [arrWrites])
    have e2 := hag t (by simp [arrReads, arrWrites])
    cases hs : σ s with
    | some q => simp only [ArrSpec.step, hs] at h; cases h
    | none =>
      cases ht : σ t with
      | none => simp only [ArrSpec.step, hs, ht] at h; cases h
      | some q' =>
        obtain ⟨M, l'⟩ := q'
        have e1' := e1.trans hs
        have e2' := e2.trans ht
        simp only [ArrSpec.step, hs, ht] at h
        simp only [ArrSpec.step, e1', e2']
        split at h
        · rw [if_pos (by assumption)]
          split at h
          · cases h; rw [if_pos (by assumption)]; exact mk1 s _ _
          · cases h; rw [if_neg (by assumption)]; exact mk2 s e1 _
        · cases h
  | assign s t cst =>
    have e1 := hag s (by simp [arrWrites])
    have e2 := hag t (by simp [arrReads, arrWrites])
    cases hs : σ s with
    | none => simp only [ArrSpec.step, hs] at h; cases h
    | some q =>
      obtain ⟨N, l⟩ := q
      cases ht : σ t with
      | none => simp only [ArrSpec.step, hs, ht] at h; cases h
      | some q' =>
        obtain ⟨M, l'⟩ := q'
        have e1' := e1.trans hs
        have e2' := e2.trans ht
        simp only [ArrSpec.step, hs, ht] at h
        simp only [ArrSpec.step, e1', e2']
        split at h
        · rw [if_pos (by assumption)]
          split at h
          · cases h; rw [if_pos (by assumption)]; exact mk1 s _ _
          · cases h; rw [if_neg (by assumption)]; exact mk2 s e1 _
        · cases h
  | load s t j num off =>
    have e1 := hag s (by simp [arrWrites])
    have e2 := hag t (by simp [arrReads, arrWrites])
    cases hs : σ s with
    | none => simp only [ArrSpec.step, hs] at h; cases h
    | some q =>
      obtain ⟨N, l⟩ := q
      cases ht : σ t with
      | none => simp only [ArrSpec.step, hs, ht] at h; cases h
      | some q' =>
        obtain ⟨M, l'⟩ := q'
        have e1' := e1.trans hs
        have e2' := e2.trans ht
        simp only [ArrSpec.step, hs, ht] at h
        simp only [ArrSpec.step, e1', e2']
        split at h
        · rw [if_pos (by assumption)]
          cases hl : ArrSpec.load N l l' j num off with
          | none => rw [hl] at h; cases h
          | some q => rw [hl] at h; cases h; exact mk1 s _ _
        · cases h
  | append s t j num =>
    have e1 := hag s (by simp [arrWrites])
    have e2 := hag t (by simp [arrReads, arrWrites])
    cases hs : σ s with
    | none => simp only [ArrSpec.step, hs] at h; cases h
    | some q =>
      obtain ⟨N, l⟩ := q
      cases ht : σ t with
      | none => simp only [ArrSpec.step, hs, ht] at h; cases h
      | some q' =>
        obtain ⟨M, l'⟩ := q'
        have e1' := e1.trans hs
        have e2' := e2.trans ht
        simp only [ArrSpec.step, hs, ht] at h
        simp only [ArrSpec.step, e1', e2']
        cases hl : ArrSpec.load N l l' j num l.length with
        | none => rw [hl] at h; cases h
        | some q => rw [hl] at h; cases h; exact mk1 s _ _
  | swap s t =>
    have e1 := hag s (by simp [arrWrites])
    have e2 := hag t (by simp [arrReads, arrWrites])
    cases hs : σ s with
    | none => simp only [ArrSpec.step, hs] at h; cases h
    | some q =>
      obtain ⟨N, l⟩ := q
      cases ht : σ t with
      | none => simp only [ArrSpec.step, hs, ht] at h; cases h
      | some q' =>
        obtain ⟨M, l'⟩ := q'
        have e1' := e1.trans hs
        have e2' := e2.trans ht
        simp only [ArrSpec.step, hs, ht] at h
        simp only [ArrSpec.step, e1', e2']
        split at h
        · cases h
          rw [if_pos (by assumption)]
          refine ⟨?_, fun u hu => ?_⟩
          · congr 2
            funext u
            by_cases h1 : u = t <;> by_cases h2 : u = s <;> simp [ArrWorld.upd, arrWrites, h1, h2]
          · simp only [arrWrites, List.mem_cons, List.not_mem_nil, or_false, not_or] at hu
            simp [ArrWorld.upd, hu.1, hu.2]
        · cases h
  | destroy s =>
    have e := hag s (by simp [arrWrites])
    cases hs : σ s with
    | none => simp only [ArrSpec.step, hs] at h; cases h
    | some q =>
      obtain ⟨N, l⟩ := q
      have e' := e.trans hs
      simp only [ArrSpec.step, hs] at h
      simp only [ArrSpec.step, e']
      cases h; exact mk1 s _ _
  | set s i c =>
    have e := hag s (by simp [arrWrites])
    cases hs : σ s with
    | none => simp only [ArrSpec.step, hs] at h; cases h
    | some q =>
      obtain ⟨N, l⟩ := q
      have e' := e.trans hs
      simp only [ArrSpec.step, hs] at h
      simp only [ArrSpec.step, e']
      split at h
      · cases h; rw [if_pos (by assumption)]; exact mk1 s _ _
      · cases h
  | get s i t =>
    have e := hag s (by simp [arrReads])
    cases hs : σ s with
    | none => simp only [ArrSpec.step, hs] at h; cases h
    | some q =>
      obtain ⟨N, l⟩ := q
      have e' := e.trans hs
      simp only [ArrSpec.step, hs] at h
      simp only [ArrSpec.step, e']
      split at h
      · cases h
      · rename_i hc
        rw [if_neg hc]
        cases hl : l[i.toNat]? with
        | none => rw [hl] at h; cases h
        | some c => rw [hl] at h; cases h; exact mk0 _
  | poke s i r k v =>
    have e := hag s (by simp [arrWrites])
    cases hs : σ s with
    | none => simp only [ArrSpec.step, hs] at h; cases h
    | some q =>
      obtain ⟨N, l⟩ := q
      have e' := e.trans hs
      simp only [ArrSpec.step, hs] at h
      simp only [ArrSpec.step, e']
      cases hm : L[r]? with
      | none => rw [hm] at h; cases h
      | some m =>
        rw [hm] at h
        simp only at h ⊢
        split at h
        · cases h
        · rename_i hc
          rw [if_neg hc]
          cases hl : l[i.toNat]? with
          | none => rw [hl] at h; cases h
          | some c => rw [hl] at h; cases h; exact mk1 s _ _
  | peek s i r k =>
    have e := hag s (by simp [arrReads])
    cases hs : σ s with
    | none => simp only [ArrSpec.step, hs] at h; cases h
    | some q =>
      obtain ⟨N, l⟩ := q
      have e' := e.trans hs
      simp only [ArrSpec.step, hs] at h
      simp only [ArrSpec.step, e']
      cases hm : L[r]? with
      | none => rw [hm] at h; cases h
      | some m =>
        rw [hm] at h
        simp only at h ⊢
        split at h
        · cases h
        · rename_i hc
          rw [if_neg hc]
          cases hl : l[i.toNat]? with
          | none => rw [hl] at h; cases h
          | some c => rw [hl] at h; cases h; exact mk0 _
  | push s c =>
    have e := hag s (by simp [arrWrites])
    cases hs : σ s with
    | none => simp only [ArrSpec.step, hs] at h; cases h
    | some q =>
      obtain ⟨N, l⟩ := q
      have e' := e.trans hs
      simp only [ArrSpec.step, hs] at h
      simp only [ArrSpec.step, e']
      split at h
      · cases h; rw [if_pos (by assumption)]; exact mk1 s _ _
      · cases h; rw [if_neg (by assumption)]; exact mk2 s e _
  | pop s =>
    have e := hag s (by simp [arrWrites])
    cases hs : σ s with
    | none => simp only [ArrSpec.step, hs] at h; cases h
    | some q =>
      obtain ⟨N, l⟩ := q
      have e' := e.trans hs
      simp only [ArrSpec.step, hs] at h
      simp only [ArrSpec.step, e']
      split at h
      · cases h; rw [if_pos (by assumption)]; exact mk2 s e _
      · cases h; rw [if_neg (by assumption)]; exact mk1 s _ _
  | clear s =>
    have e := hag s (by simp [arrWrites])
    cases hs : σ s with
    | none => simp only [ArrSpec.step, hs] at h; cases h
    | some q =>
      obtain ⟨N, l⟩ := q
      have e' := e.trans hs
      simp only [ArrSpec.step, hs] at h
      simp only [ArrSpec.step, e']
      cases h; exact mk1 s _ _
  | back s t =>
    have e := hag s (by simp [arrReads])
    cases hs : σ s with
    | none => simp only [ArrSpec.step, hs] at h; cases h
    | some q =>
      obtain ⟨N, l⟩ := q
      have e' := e.trans hs
      simp only [ArrSpec.step, hs] at h
      simp only [ArrSpec.step, e']
      cases hl : l.getLast? with
      | none => rw [hl] at h; cases h
      | some c => rw [hl] at h; cases h; exact mk0 _
  | size s =>
    have e := hag s (by simp [arrReads])
    cases hs : σ s with
    | none => simp only [ArrSpec.step, hs] at h; cases h
    | some q =>
      obtain ⟨N, l⟩ := q
      have e' := e.trans hs
      simp only [ArrSpec.step, hs] at h
      simp only [ArrSpec.step, e']
      cases h; exact mk0 _
  | capacity s =>
    have e := hag s (by simp [arrReads])
    cases hs : σ s with
    | none => simp only [ArrSpec.step, hs] at h; cases h
    | some q =>
      obtain ⟨N, l⟩ := q
      have e' := e.trans hs
      simp only [ArrSpec.step, hs] at h
      simp only [ArrSpec.step, e']
      cases h; exact mk0 _
  | byteSize s =>
    have e := hag s (by simp [arrReads])
    cases hs : σ s with
    | none => simp only [ArrSpec.step, hs] at h; cases h
    | some q =>
      obtain ⟨N, l⟩ := q
      have e' := e.trans hs
      simp only [ArrSpec.step, hs] at h
      simp only [ArrSpec.step, e']
      cases h; exact mk0 _
  | iter s t =>
    have e := hag s (by simp [arrReads])
    cases hs : σ s with
    | none => simp only [ArrSpec.step, hs] at h; cases h
    | some q =>
      obtain ⟨N, l⟩ := q
      have e' := e.trans hs
      simp only [ArrSpec.step, hs] at h
      simp only [ArrSpec.step, e']
      cases h; exact mk0 _

theorem arr_local : Prog.Local arrReads arrWrites (arrPre L) (arrPost L) := by
  refine ⟨?_, ?_, ?_⟩
  · rintro a b op hag ⟨σ', out, h⟩
    exact ⟨_, _, (arr_shape hag h).1⟩
  · intro a b a' op out hag h
    exact ⟨_, (arr_shape hag h).1, fun s hs => by simp only [if_pos hs], fun s hs => by simp only [if_neg hs]⟩
  · intro a a' op out h
    exact (arr_shape (fun _ _ => rfl) h).2

theorem arr_safe : ∀ (p : Prog (ArrOp V) (ArrOut V) ρ) {σ σ' : ArrSpec.State V} {r : ρ}, arrAllowed L p σ = some (σ', r) →
    p.Safe (arrPre L) (arrPost L) σ ∧ ∀ r' σ'', p.Allows (arrPost L) σ r' σ'' → r' = r ∧ σ'' = σ'
  | .ret r', σ, σ', r, h => by cases h; exact ⟨trivial, fun _ _ h => h⟩
  | .call op k, σ, σ', r, h => by
    rw [arrAllowed] at h
    cases e : ArrSpec.step L σ op with
    | none => rw [e] at h; cases h
    | some q =>
      rw [e] at h
      obtain ⟨k1, k2⟩ := arr_safe (k q.2) h
      have det : ∀ {a' out}, arrPost L σ op a' out → a' = q.1 ∧ out = q.2 := by
        intro a' out hp
        rw [arrPost, e] at hp
        injection hp with hp; subst hp; exact ⟨rfl, rfl⟩
      refine ⟨⟨⟨_, _, e⟩, fun a' out hp => ?_⟩, fun r' σ'' hall => ?_⟩
      · obtain ⟨rfl, rfl⟩ := det hp; exact k1
      · obtain ⟨a', out, hp, hall⟩ := hall
        obtain ⟨rfl, rfl⟩ := det hp
        exact k2 _ _ hall

/-- C86, arrays: several threads each run a client that changes arrays which no other thread uses, and reads these and arrays which no
    thread changes. Started in any state `w` which a program has reached, they never run into undefined behaviour, whatever turns they
    take; a thread which has finished has the result it has if it runs alone, and its arrays have the contents they have then. -/
theorem C86_array (hL : L.WF) (dv : V) {ops : List (ArrOp V)} {σ : ArrSpec.State V} {outs : List (ArrOut V)}
    (hσ : ArrSpec.run L ArrSpec.start ops = some (σ, outs)) {w : ArrWorld V} (hw : ArrWorld.init.run L ops = .ok (w, outs))
    (own : Nat → Option ι) (P : ι → Prog (ArrOp V) (ArrOut V) ρ) (hown : ∀ i, (P i).Within arrReads arrWrites own i)
    (hP : ∀ i, ∃ σ' r, arrAllowed L (P i) σ = some (σ', r)) (sched : List ι) :
    ∃ w' P', Prog.interleave (fun w op => ArrWorld.step L w op) sched P w = .ok (w', P') ∧
      ∀ i r, P' i = .ret r → ∃ w1, (P i).exec (fun w op => ArrWorld.step L w op) w = .ok (w1, r) ∧
        ∀ s N l, own s = some i → (ListIs L w1 s N l ↔ ListIs L w' s N l) := by
  obtain ⟨w0, e0, hR⟩ := arr_run_refines hL dv ops (ArrR.init L) hσ
  rw [hw] at e0; injection e0 with e0; injection e0 with e0 _; subst e0
  obtain ⟨w', P', a', b', h1, h2, h3, h4⟩ := Prog.interleave_refines (R := ArrR L) (own := own) arr_local
    (step := fun w op => ArrWorld.step L w op)
    (fun op hR hp => by
      obtain ⟨σ', out, hp⟩ := hp
      obtain ⟨w', k1, k2⟩ := arr_step_refines hL dv hR hp
      exact ⟨w', out, σ', k1, hp, k2⟩)
    P σ sched P (fun _ => σ) hR (fun i => by obtain ⟨σ', r, h⟩ := hP i; exact (arr_safe _ h).1) hown (fun _ _ _ => rfl)
    (fun _ _ _ h => h)
  refine ⟨w', P', h1, fun i r hr => ?_⟩
  obtain ⟨σ', r', h⟩ := hP i
  have hall := h4 i r (b' i) (by rw [hr]; exact ⟨rfl, rfl⟩)
  obtain ⟨rfl, hb⟩ := (arr_safe _ h).2 _ _ hall
  obtain ⟨w1, k1, k2⟩ := arr_exec_refines hL dv (P i) hR h
  refine ⟨w1, k1, fun s N l hs => ?_⟩
  have e : σ' s = a' s := by rw [← hb]; exact h3 i s (.inl hs)
  cases hx : σ' s with
  | none =>
    have n1 := k2.absent hx
    have n2 := h2.absent (e ▸ hx)
    constructor
    · intro h; obtain ⟨a, ha, _⟩ := h.exists; rw [n1] at ha; cases ha
    · intro h; obtain ⟨a, ha, _⟩ := h.exists; rw [n2] at ha; cases ha
  | some q =>
    obtain ⟨a1, ha1, hr1⟩ := k2.arr (N := q.1) (l := q.2) hx
    obtain ⟨a2, ha2, hr2⟩ := h2.arr (N := q.1) (l := q.2) (e ▸ hx)
    have l1 := ListIs.of_rep hL ha1 hr1
    have l2 := ListIs.of_rep hL ha2 hr2
    constructor
    · intro h
      obtain ⟨rfl, -, -⟩ := h.agree l1
      exact l2.congr_maps fun t => l1.maps h t
    · intro h
      obtain ⟨rfl, -, -⟩ := h.agree l2
      exact l1.congr_maps fun t => l2.maps h t

/-! ### Grids -/

/-- Grids which a call only reads from. `get` and `save` are not among these calls, as they use the staging buffer of the grid (C61). -/
def gridReads : Op V → List Nat
  | .copy _ t => [t]
  | .assign _ t => [t]
  | .peek s _ _ _ _ _ _ _ _ => [s]
  | .dims s => [s]
  | .extents s => [s]
  | .byteSize s => [s]
  | _ => []

/-- Grids which a call may change. -/
def gridWrites : Op V → List Nat
  | .new s _ => [s]
  | .copy s _ => [s]
  | .assign s _ => [s]
  | .swap s t => [s, t]
  | .resize s _ => [s]
  | .destroy s => [s]
  | .set s _ _ _ _ => [s]
  | .broadcast s _ _ _ _ _ => [s]
  | .get s _ _ _ _ => [s]
  | .load s _ _ _ => [s]
  | .save s _ _ _ => [s]
  | .poke s _ _ _ _ _ _ _ _ _ => [s]
  | _ => []

theorem grid_pre {a b : AWorld V} {op : Op V} (hag : ∀ s, s ∈ gridReads op ∨ s ∈ gridWrites op → b s = a s) (h : Spec.Pre C a op) :
    Spec.Pre C b op := by
  cases op with
  | new s d | destroy s | set s _ _ _ _ | broadcast s _ _ _ _ _ | get s _ _ _ _ | load s _ _ _ | save s _ _ _ | poke s _ _ _ _ _ _ _ _ _ | resize s d =>
    have e := hag s (by simp [gridWrites])
    simp only [Spec.Pre, e] at h ⊢
    exact h
  | peek s _ _ _ _ _ _ _ _ | dims s | extents s | byteSize s =>
    have e := hag s (by simp [gridReads])
    simp only [Spec.Pre, e] at h ⊢
    exact h
  | copy s t | assign s t | swap s t =>
    have e := hag s (by simp [gridWrites])
    have e2 := hag t (by simp [gridReads, gridWrites])
    simp only [Spec.Pre, e, e2] at h ⊢
    exact h

theorem grid_post {a b a' : AWorld V} {op : Op V} {out : Out V} (hag : ∀ s, s ∈ gridReads op ∨ s ∈ gridWrites op → b s = a s)
    (h : Spec.Post C dv a op a' out) :
    ∃ b', Spec.Post C dv b op b' out ∧ (∀ s ∈ gridWrites op, b' s = a' s) ∧ ∀ s, s ∉ gridWrites op → b' s = b s := by
  have one : ∀ s x, (∀ u ∈ [s], World.upd b s x u = World.upd a s x u) ∧ ∀ u, u ∉ [s] → World.upd b s x u = b u := by
    intro s x
    refine ⟨fun u hu => ?_, fun u hu => ?_⟩
    · have : u = s := by simpa using hu
      simp [World.upd, this]
    · have : u ≠ s := by simpa using hu
      simp [World.upd, this]
  have same : ∀ s, b s = a s → (∀ u ∈ [s], b u = a u) ∧ ∀ u, u ∉ [s] → b u = b u := by
    intro s e
    refine ⟨fun u hu => ?_, fun _ _ => rfl⟩
    have : u = s := by simpa using hu
    rw [this, e]
  have none : (∀ u ∈ ([] : List Nat), b u = a u) ∧ ∀ u, u ∉ ([] : List Nat) → b u = b u := ⟨fun _ h => (List.not_mem_nil h).elim, fun _ _ => rfl⟩
  have W : ∀ {s}, s ∈ gridWrites op → b s = a s := fun h => hag _ (.inr h)
  have D : ∀ {s}, s ∈ gridReads op → b s = a s := fun h => hag _ (.inl h)
  cases h with
  | newBlank s => exact ⟨_, .newBlank b s, one s _⟩
  | new s d e hd h => exact ⟨_, .new b s d e hd h, one s _⟩
  | newFail s d x hd h => exact ⟨_, .newFail b s d x hd h, same s (W (by simp [gridWrites]))⟩
  | copy s t g h => exact ⟨_, .copy b s t g ((D (by simp [gridReads])).trans h), one s _⟩
  | assign s t g ext h h' =>
    have e : b s = a s := W (by simp [gridWrites])
    exact ⟨_, .assign b s t g ext ((D (by simp [gridReads])).trans h) (by rw [e]; exact h'), one s _⟩
  | assignBlank s t g h hs hg =>
    have e : b s = a s := W (by simp [gridWrites])
    exact ⟨_, .assignBlank b s t g ((D (by simp [gridReads])).trans h) (e.trans hs) hg, same s e⟩
  | swap s t g g' h h' =>
    refine ⟨_, .swap b s t g g' ((W (by simp [gridWrites])).trans h) ((W (by simp [gridWrites])).trans h'), fun u hu => ?_, fun u hu => ?_⟩
    · simp only [gridWrites, List.mem_cons, List.not_mem_nil, or_false] at hu
      by_cases h1 : u = t
      · simp [World.upd, h1]
      · have h2 : u = s := hu.resolve_right h1
        simp [World.upd, h2]
    · simp only [gridWrites, List.mem_cons, List.not_mem_nil, or_false, not_or] at hu
      simp [World.upd, hu.1, hu.2]
  | resizeBlank s h =>
    have e : b s = a s := W (by simp [gridWrites])
    exact ⟨_, .resizeBlank b s (e.trans h), same s e⟩
  | resizeSame s g h =>
    have e : b s = a s := W (by simp [gridWrites])
    exact ⟨_, .resizeSame b s g (e.trans h), same s e⟩
  | resize s d e h hb hg he =>
    have q : b s = a s := W (by simp [gridWrites])
    exact ⟨_, .resize b s d e (by rw [q]; exact h) (by rw [q]; exact hb) (by rw [q]; exact hg) he, one s _⟩
  | destroy s => exact ⟨_, .destroy b s, one s _⟩
  | set s x y z cells new g h hn => exact ⟨_, .set b s x y z cells new g ((W (by simp [gridWrites])).trans h) hn, one s _⟩
  | broadcast s x y z cell n g h => exact ⟨_, .broadcast b s x y z cell n g ((W (by simp [gridWrites])).trans h), one s _⟩
  | get s x y z target out g h hl ho =>
    have e : b s = a s := W (by simp [gridWrites])
    exact ⟨_, .get b s x y z target out g (e.trans h) hl ho, same s e⟩
  | load s ss src n g rows h hl hp => exact ⟨_, .load b s ss src n g rows ((W (by simp [gridWrites])).trans h) hl hp, one s _⟩
  | save s ss tgt out n g h hp hs hf =>
    have e : b s = a s := W (by simp [gridWrites])
    exact ⟨_, .save b s ss tgt out n g (e.trans h) hp hs hf, same s e⟩
  | poke s x y z X Y Z r k v g px py pz h hx hy hz =>
    exact ⟨_, .poke b s x y z X Y Z r k v g px py pz ((W (by simp [gridWrites])).trans h) hx hy hz, one s _⟩
  | peek s x y z X Y Z r k g px py pz h hx hy hz =>
    exact ⟨_, .peek b s x y z X Y Z r k g px py pz ((D (by simp [gridReads])).trans h) hx hy hz, none⟩
  | dims s g h => exact ⟨_, .dims b s g ((D (by simp [gridReads])).trans h), none⟩
  | dimsBlank s h => exact ⟨_, .dimsBlank b s ((D (by simp [gridReads])).trans h), none⟩
  | extents s g e h he => exact ⟨_, .extents b s g e ((D (by simp [gridReads])).trans h) he, none⟩
  | byteSize s g e h he => exact ⟨_, .byteSize b s g e ((D (by simp [gridReads])).trans h) he, none⟩

theorem grid_frame {a a' : AWorld V} {op : Op V} {out : Out V} (h : Spec.Post C dv a op a' out) : ∀ s, s ∉ gridWrites op → a' s = a s := by
  intro u hu
  cases h <;> first
    | rfl
    | (simp only [gridWrites, List.mem_cons, List.not_mem_nil, or_false, not_or] at hu
       simp [World.upd, hu])

theorem grid_local : Prog.Local gridReads gridWrites (Spec.Pre C) (Spec.Post C dv) :=
  ⟨fun hag h => grid_pre hag h, fun hag h => grid_post hag h, fun h => grid_frame h⟩

/-- C86, grids: as `C86_array`. The threads are started in the state a program `ops` has reached; each is assumed to respect the contracts
    if it runs alone, whatever it observes then. Its result and the contents of its grids are what plain 3D arrays allow for this thread
    alone. -/
theorem C86_grid_partial (hL : C.L.WF) {ops : List (Op V)} (hleg : Spec.Legal C dv Spec.start ops) {w : World V} {outs : List (Out V)}
    (hw : World.init.run C ops = .ok (w, outs)) (own : Nat → Option ι) (P : ι → Prog (Op V) (Out V) ρ)
    (hown : ∀ i, (P i).Within gridReads gridWrites own i)
    (hP : ∀ a, Spec.Run C dv Spec.start ops a outs → ∀ i, (P i).Safe (Spec.Pre C) (Spec.Post C dv) a) (sched : List ι) :
    ∃ w' P' a, Prog.interleave (fun w op => World.step C w op) sched P w = .ok (w', P') ∧ Spec.Run C dv Spec.start ops a outs ∧
      ∀ i r, P' i = .ret r → ∃ b, (P i).Allows (Spec.Post C dv) a r b ∧
        ∀ s g, own s = some i → b s = .grid g → DimsAre C w' s g.dim ∧
          ∀ x y z, InDim g.dim x y z → CellIs C w' s x y z (g.cells x y z) := by
  obtain ⟨w0, outs0, a, e0, hrun, hR, -⟩ := run_refines hL R.init ops [] (by rw [List.append_nil]; exact hleg)
  rw [hw] at e0; injection e0 with e0; injection e0 with e0 e1; subst e0 e1
  obtain ⟨w', P', a', b', h1, h2, h3, h4⟩ := Prog.interleave_refines (R := R C) (own := own) (grid_local (C := C) (dv := dv))
    (step := fun w op => World.step C w op) (fun op hR hp => step_refines hL dv hR op hp)
    P a sched P (fun _ => a) hR (hP a hrun) hown (fun _ _ _ => rfl) (fun _ _ _ h => h)
  refine ⟨w', P', a, h1, hrun, fun i r hr => ⟨b' i, h4 i r (b' i) (by rw [hr]; exact ⟨rfl, rfl⟩), fun s g hs hg => ?_⟩⟩
  rw [h3 i s (.inl hs)] at hg
  exact ⟨dims_of h2 hg rfl, fun x y z hin => h2.cellIs hL hg hin⟩

/-! ### Vectors -/

/-- Vectors which a call only reads from; `get` uses the staging buffer of the grid (C61). -/
def vecReads : VecOp V → List Nat
  | .copy _ t => [t]
  | .assign _ t => [t]
  | .size s => [s]
  | .capacity s => [s]
  | .empty s => [s]
  | .peek s _ _ _ _ => [s]
  | _ => []

/-- Vectors which a call may change. -/
def vecWrites : VecOp V → List Nat
  | .new s _ => [s]
  | .newFill s _ _ => [s]
  | .copy s _ => [s]
  | .assign s _ => [s]
  | .destroy s => [s]
  | .set s _ _ => [s]
  | .get s _ _ => [s]
  | .push s _ => [s]
  | .pop s _ => [s]
  | .clear s => [s]
  | .resize s _ => [s]
  | .reserve s _ => [s]
  | .poke s _ _ _ _ _ => [s]
  | _ => []

theorem vec_pre {a b : VecList.State V} {op : VecOp V} (hag : ∀ s, s ∈ vecReads op ∨ s ∈ vecWrites op → b s = a s)
    (h : VecList.Pre C a op) : VecList.Pre C b op := by
  cases op with
  | new s _ | newFill s _ _ | destroy s | set s _ _ | get s _ _ | push s _ | pop s _ | clear s | resize s _ | reserve s _ | poke s _ _ _ _ _ =>
    have e := hag s (by simp [vecWrites])
    simp only [VecList.Pre, e] at h ⊢
    exact h
  | size s | empty s | peek s _ _ _ _ =>
    have e := hag s (by simp [vecReads])
    simp only [VecList.Pre, e] at h ⊢
    exact h
  | capacity s => exact h.elim
  | copy s t => exact h.elim
  | assign s t => exact h.elim

theorem vec_post {a b a' : VecList.State V} {op : VecOp V} {out : ArrOut V} (hag : ∀ s, s ∈ vecReads op ∨ s ∈ vecWrites op → b s = a s)
    (h : VecList.Post C dv a op a' out) :
    VecList.Post C dv b op (fun u => if u ∈ vecWrites op then a' u else b u) out ∧ ∀ s, s ∉ vecWrites op → a' s = a s := by
  have one : ∀ {s x}, a' = World.upd a s x → (fun u => if u ∈ [s] then a' u else b u) = World.upd b s x := by
    rintro s x rfl; funext u
    by_cases hu : u = s <;> simp [World.upd, hu]
  have one' : ∀ {s x}, a' = World.upd a s x → ∀ u, u ∉ [s] → a' u = a u := by
    rintro s x rfl u hu
    have : u ≠ s := by simpa using hu
    simp [World.upd, this]
  have same : ∀ {s}, b s = a s → a' = a → (fun u => if u ∈ [s] then a' u else b u) = b := by
    rintro s e rfl; funext u
    by_cases hu : u = s
    · subst hu; simp [e]
    · simp [hu]
  have none : (fun u => if u ∈ ([] : List Nat) then a' u else b u) = b := by funext u; simp
  have alloc : ∀ {n s x}, b s = a s → VecList.Alloc C n a a' out (a' = World.upd a s x) →
      VecList.Alloc C n b (fun u => if u ∈ [s] then a' u else b u) out ((fun u => if u ∈ [s] then a' u else b u) = World.upd b s x) ∧
        ∀ u, u ∉ [s] → a' u = a u := by
    intro n s x e h
    simp only [VecList.Alloc] at h ⊢
    split at h
    · exact ⟨⟨h.1, same e h.2⟩, fun u _ => by rw [h.2]⟩
    · exact ⟨⟨h.1, one h.2⟩, one' h.2⟩
  cases op with
  | new s n => exact alloc (hag s (by simp [vecWrites])) h
  | newFill s n c => exact alloc (hag s (by simp [vecWrites])) h
  | destroy s => exact ⟨⟨h.1, one h.2⟩, one' h.2⟩
  | set s i c =>
    obtain ⟨l, h1, h2, h3⟩ := h
    exact ⟨⟨l, (hag s (by simp [vecWrites])).trans h1, h2, one h3⟩, one' h3⟩
  | get s i t =>
    obtain ⟨l, c, h1, h2, h3, h4⟩ := h
    exact ⟨⟨l, c, (hag s (by simp [vecWrites])).trans h1, h2, h3, same (hag s (by simp [vecWrites])) h4⟩, fun u _ => by rw [h4]⟩
  | push s c =>
    obtain ⟨l, h1, ⟨h2, h3⟩ | ⟨e, h2, h3, h4, h5⟩⟩ := h
    · exact ⟨⟨l, (hag s (by simp [vecWrites])).trans h1, .inl ⟨h2, one h3⟩⟩, one' h3⟩
    · exact ⟨⟨l, (hag s (by simp [vecWrites])).trans h1, .inr ⟨e, h2, h3, h4, same (hag s (by simp [vecWrites])) h5⟩⟩, fun u _ => by rw [h5]⟩
  | pop s td =>
    obtain ⟨l, h1, h2, h3⟩ := h
    exact ⟨⟨l, (hag s (by simp [vecWrites])).trans h1, h2, one h3⟩, one' h3⟩
  | clear s => exact ⟨⟨h.1, one h.2⟩, one' h.2⟩
  | resize s m =>
    obtain ⟨l, h1, ⟨l', h2, h3, h4⟩ | ⟨e, h2, h3, h4, h5⟩⟩ := h
    · exact ⟨⟨l, (hag s (by simp [vecWrites])).trans h1, .inl ⟨l', h2, one h3, h4⟩⟩, one' h3⟩
    · exact ⟨⟨l, (hag s (by simp [vecWrites])).trans h1, .inr ⟨e, h2, h3, h4, same (hag s (by simp [vecWrites])) h5⟩⟩, fun u _ => by rw [h5]⟩
  | reserve s m =>
    simp only [VecList.Post, VecList.Alloc] at h ⊢
    split at h
    · exact ⟨⟨h.1, same (hag s (by simp [vecWrites])) h.2⟩, fun u _ => by rw [h.2]⟩
    · exact ⟨⟨h.1, same (hag s (by simp [vecWrites])) h.2⟩, fun u _ => by rw [h.2]⟩
  | size s =>
    obtain ⟨l, h1, h2, h3⟩ := h
    exact ⟨⟨l, (hag s (by simp [vecReads])).trans h1, h2, none⟩, fun u _ => by rw [h3]⟩
  | empty s =>
    obtain ⟨l, h1, h2, h3⟩ := h
    exact ⟨⟨l, (hag s (by simp [vecReads])).trans h1, h2, none⟩, fun u _ => by rw [h3]⟩
  | poke s x X r k v =>
    obtain ⟨l, c, h1, h2, h3, h4⟩ := h
    exact ⟨⟨l, c, (hag s (by simp [vecWrites])).trans h1, h2, h3, one h4⟩, one' h4⟩
  | peek s x X r k =>
    obtain ⟨l, c, h1, h2, h3, h4⟩ := h
    exact ⟨⟨l, c, (hag s (by simp [vecReads])).trans h1, h2, h3, none⟩, fun u _ => by rw [h4]⟩
  | capacity s => exact h.elim
  | copy s t => exact h.elim
  | assign s t => exact h.elim

theorem vec_local : Prog.Local vecReads vecWrites (VecList.Pre C) (fun a op a' out => VecList.Post C dv a op a' out) :=
  ⟨fun hag h => vec_pre hag h,
   fun hag h => ⟨_, (vec_post hag h).1, fun s hs => by simp only [if_pos hs], fun s hs => by simp only [if_neg hs]⟩,
   fun h => (vec_post (fun _ _ => rfl) h).2⟩

/-- C86, vectors: as `C86_grid_partial`, with lists. -/
theorem C86_vector_partial (hL : C.L.WF) (h1 : OneD C.tr) (hr : Roomy C.tr) {ops : List (VecOp V)}
    (hleg : VecList.Legal C dv VecList.start ops) {w : VecWorld V} {outs : List (ArrOut V)}
    (hw : VecWorld.init.run C ops = .ok (w, outs)) (own : Nat → Option ι) (P : ι → Prog (VecOp V) (ArrOut V) ρ)
    (hown : ∀ i, (P i).Within vecReads vecWrites own i)
    (hP : ∀ σ, VecList.Run C dv VecList.start ops outs σ →
      ∀ i, (P i).Safe (VecList.Pre C) (fun a op a' out => VecList.Post C dv a op a' out) σ) (sched : List ι) :
    ∃ w' P' σ, Prog.interleave (fun w op => VecWorld.step C w op) sched P w = .ok (w', P') ∧ VecList.Run C dv VecList.start ops outs σ ∧
      ∀ i r, P' i = .ret r → ∃ σ', (P i).Allows (fun a op a' out => VecList.Post C dv a op a' out) σ r σ' ∧
        ∀ s l, own s = some i → σ' s = some l → VecIs C w' s l := by
  obtain ⟨w0, outs0, τ, σ, e0, hrun, hR, hl⟩ := list_run hL h1 hr dv ops VR.init VL.init hleg
  rw [hw] at e0; injection e0 with e0; injection e0 with e0 e1; subst e0 e1
  obtain ⟨w', P', a', b', k1, ⟨τ', hR', hl'⟩, k3, k4⟩ := Prog.interleave_refines (R := fun w σ => ∃ τ, VR C w τ ∧ VL C τ σ) (own := own)
    (vec_local (C := C) (dv := dv)) (step := fun w op => VecWorld.step C w op)
    (fun op hR h => by
      obtain ⟨τ, hR, hl⟩ := hR
      obtain ⟨τ', out, σ', e1, e2, e3⟩ := list_step h1 hr dv hR hl op h
      obtain ⟨w', e4, e5⟩ := vec_step_refines hL h1 dv hR op e1
      exact ⟨w', out, σ', e4, e2, τ', e5, e3⟩)
    P σ sched P (fun _ => σ) ⟨τ, hR, hl⟩ (hP σ hrun) hown (fun _ _ _ => rfl) (fun _ _ _ h => h)
  refine ⟨w', P', σ, k1, hrun, fun i r hr => ⟨b' i, k4 i r (b' i) (by rw [hr]; exact ⟨rfl, rfl⟩), fun s l hs hg => ?_⟩⟩
  rw [k3 i s (.inl hs)] at hg
  exact VecIs.of_lists hL h1 hR' hl' hg dv

/-! ### All threads can finish -/

/-- C86: after any turns, threads which respect the contracts can go on until they have all finished. Stated for arrays; see `C86_finish_grid_partial`
    and `C86_finish_vector` (Props/Finish.lean) for grids and vectors. -/
theorem C86_finish (hL : L.WF) (dv : V) {ops : List (ArrOp V)} {σ : ArrSpec.State V} {outs : List (ArrOut V)}
    (hσ : ArrSpec.run L ArrSpec.start ops = some (σ, outs)) {w : ArrWorld V} (hw : ArrWorld.init.run L ops = .ok (w, outs))
    (own : Nat → Option ι) (P : ι → Prog (ArrOp V) (ArrOut V) ρ) (hown : ∀ i, (P i).Within arrReads arrWrites own i)
    (hP : ∀ i, ∃ σ' r, arrAllowed L (P i) σ = some (σ', r)) (sched : List ι) (is : List ι) :
    ∃ more w' P', Prog.interleave (fun w op => ArrWorld.step L w op) (sched ++ more) P w = .ok (w', P') ∧ ∀ i ∈ is, ∃ r, P' i = .ret r := by
  obtain ⟨w1, P1, h1, -⟩ := C86_array hL dv hσ hw own P hown hP sched
  obtain ⟨more, w', P', k1, k2⟩ := Prog.all_can_finish (step := fun w op => ArrWorld.step L w op) is (P := P1) (w := w1) fun s => by
    obtain ⟨w2, P2, h2, -⟩ := C86_array hL dv hσ hw own P hown hP (sched ++ s)
    rw [Prog.interleave_append _ _ h1] at h2
    exact ⟨_, h2⟩
  exact ⟨more, w', P', by rw [Prog.interleave_append _ _ h1]; exact k1, fun i hi => k2 i (.inl hi)⟩

/-! ### Examples -/

theorem within_bind {Op Out ρ' : Type} {rd wr : Op → List Nat} {own : Nat → Option ι} {i : ι} {f : ρ → Prog Op Out ρ'} (hf : ∀ r, (f r).Within rd wr own i) :
    ∀ (p : Prog Op Out ρ), p.Within rd wr own i → (p.bind f).Within rd wr own i
  | .ret r, _ => hf r
  | .call _ k, h => ⟨h.1, h.2.1, fun out => within_bind hf (k out) (h.2.2 out)⟩

theorem within_loop {Op Out : Type} {rd wr : Op → List Nat} {own : Nat → Option ι} {i : ι} {body : Nat → ρ → Prog Op Out ρ}
    (hb : ∀ k s, (body k s).Within rd wr own i) : ∀ n b s, (Prog.loop body n b s).Within rd wr own i
  | 0, _, _ => trivial
  | n + 1, b, s => within_bind (fun r => within_loop hb n (b + 1) r) _ (hb b s)

theorem filterLoop_within {own : Nat → Option ι} {i : ι} {s s' : Nat} (hs : own s = none) (hs' : own s' = some i) (t : Cell V)
    (q : Cell V → Bool) : (filterLoop s s' t q).Within arrReads arrWrites own i := by
  refine ⟨by simp [arrWrites], by simp [arrReads, hs], fun out => ?_⟩
  cases out with
  | nat n =>
    refine within_loop (fun k _ => ?_) n 0 ()
    refine ⟨by simp [arrWrites], by simp [arrReads, hs], fun out => ?_⟩
    cases out with
    | cells l =>
      cases l with
      | nil => trivial
      | cons c l =>
        cases l with
        | nil =>
          simp only
          split
          · exact ⟨by simp [arrWrites, hs'], by simp [arrReads], fun _ => trivial⟩
          · trivial
        | cons => trivial
    | _ => trivial
  | _ => trivial

/-- Any number of threads look through one array, each for elements that pass another test, and collect them in an array each of their
    own: whatever turns they take, each one that has finished has found exactly what it should. -/
theorem C86_parallel_filter (hL : L.WF) (dv : V) {ops : List (ArrOp V)} {σ : ArrSpec.State V} {outs : List (ArrOut V)}
    (hσ : ArrSpec.run L ArrSpec.start ops = some (σ, outs)) {w : ArrWorld V} (hw : ArrWorld.init.run L ops = .ok (w, outs))
    {s N : Nat} {l : List (Cell V)} (hs : σ s = some (N, l)) (t : Cell V) (tgt : ι → Nat) (hinj : Function.Injective tgt)
    (hne : ∀ i, tgt i ≠ s) (hempty : ∀ i, σ (tgt i) = some (N, [])) (q : ι → Cell V → Bool) (sched : List ι) :
    ∃ w' P', Prog.interleave (fun w op => ArrWorld.step L w op) sched (fun i => filterLoop s (tgt i) t (q i)) w = .ok (w', P') ∧
      ∀ i, P' i = .ret () → ListIs L w' (tgt i) N ((l.map fun c => overlay L c t).filter (q i)) := by
  classical
  obtain ⟨w0, e0, hR⟩ := arr_run_refines hL dv ops (ArrR.init L) hσ
  rw [hw] at e0; injection e0 with e0; injection e0 with e0 _; subst e0
  have hlen : l.length ≤ N := by
    obtain ⟨a, ha, hrep⟩ := hR.arr hs
    exact hrep.fits
  have fits : ∀ i, ([] : List (Cell V)).length + ((l.map fun c => overlay L c t).filter (q i)).length ≤ N := by
    intro i
    have := List.length_filter_le (q i) (l.map fun c => overlay L c t)
    rw [List.length_map] at this
    simp only [List.length_nil]; omega
  let own : Nat → Option ι := fun u => if h : ∃ i, tgt i = u then some h.choose else none
  have hown : ∀ i, own (tgt i) = some i := by
    intro i
    have h : ∃ j, tgt j = tgt i := ⟨i, rfl⟩
    simp only [own, dif_pos h]
    exact congrArg some (hinj h.choose_spec)
  have hown0 : own s = none := by
    simp only [own]
    rw [dif_neg]
    rintro ⟨i, hi⟩; exact hne i hi
  have hP : ∀ i, ∃ σ' : ArrSpec.State V, arrAllowed L (filterLoop s (tgt i) t (q i)) σ = some (σ', ()) ∧ σ' s = some (N, l) ∧
      σ' (tgt i) = some (N, [] ++ (l.map fun c => overlay L c t).filter (q i)) :=
    fun i => filterLoop_spec (Ne.symm (hne i)) t (q i) hs (hempty i) (fits i)
  obtain ⟨w', P', h1, h2⟩ := C86_array hL dv hσ hw own (fun i => filterLoop s (tgt i) t (q i))
    (fun i => filterLoop_within hown0 (hown i) t (q i)) (fun i => by obtain ⟨σ', h, -⟩ := hP i; exact ⟨σ', (), h⟩) sched
  refine ⟨w', P', h1, fun i hi => ?_⟩
  obtain ⟨w1, k1, k2⟩ := h2 i () hi
  obtain ⟨σ', h, -, h3⟩ := hP i
  obtain ⟨w2, m1, m2⟩ := arr_exec_refines hL dv _ hR h
  rw [k1] at m1; injection m1 with m1; injection m1 with m1 _; subst m1
  obtain ⟨a, ha, hrep⟩ := m2.arr h3
  exact (k2 _ _ _ (hown i)).1 (ListIs.of_rep hL ha hrep)

/-- An array of three elements and two empty ones; two threads. -/
example : ∃ w : ArrWorld Int, ∀ sched : List Bool, ∃ w' P', Prog.interleave (fun w op => ArrWorld.step demoL w op) sched
      (fun i => filterLoop 0 (if i then 1 else 2) demoCell fun c => decide (c 0 0 = 5) == i) w = .ok (w', P') ∧
    (P' true = .ret () → ∃ l, ListIs demoL w' 1 4 l ∧ l.length = 2) := by
  have hσ : ∃ σ outs, ArrSpec.run demoL ArrSpec.start
      [.new 0 4 1 demoCell, .push 0 (fun _ _ => 5), .push 0 (fun _ _ => 5), .new 1 4 0 demoCell, .new 2 4 0 demoCell] = some (σ, outs) ∧
      σ 0 = some (4, [demoCell, fun _ _ => 5, fun _ _ => 5]) ∧ σ 1 = some (4, []) ∧ σ 2 = some (4, []) := ⟨_, _, rfl, rfl, rfl, rfl⟩
  obtain ⟨σ, outs, hσ, h0, h1, h2⟩ := hσ
  obtain ⟨w, hw⟩ := C23_history demoL_WF 0 hσ
  refine ⟨w, fun sched => ?_⟩
  obtain ⟨w', P', k1, k2⟩ := C86_parallel_filter demoL_WF 0 hσ hw h0 demoCell (fun i : Bool => if i then 1 else 2)
    (by intro i j; cases i <;> cases j <;> simp) (by intro i; cases i <;> simp) (by intro i; cases i; exact h2; exact h1)
    (fun i c => decide (c 0 0 = 5) == i) sched
  exact ⟨w', P', k1, fun h => ⟨_, k2 true h, rfl⟩⟩

/-- The same two threads can always go on until both have finished. -/
example : ∃ w : ArrWorld Int, ∀ sched : List Bool, ∃ more w' P', Prog.interleave (fun w op => ArrWorld.step demoL w op) (sched ++ more)
      (fun i => filterLoop 0 (if i then 1 else 2) demoCell fun c => decide (c 0 0 = 5) == i) w = .ok (w', P') ∧
    ∀ i ∈ [true, false], ∃ r, P' i = .ret r := by
  have hσ : ∃ σ outs, ArrSpec.run demoL ArrSpec.start
      [.new 0 4 1 demoCell, .push 0 (fun _ _ => 5), .push 0 (fun _ _ => 5), .new 1 4 0 demoCell, .new 2 4 0 demoCell] = some (σ, outs) ∧
      σ 0 = some (4, [demoCell, fun _ _ => 5, fun _ _ => 5]) ∧ σ 1 = some (4, []) ∧ σ 2 = some (4, []) := ⟨_, _, rfl, rfl, rfl, rfl⟩
  obtain ⟨σ, outs, hσ, h0, h1, h2⟩ := hσ
  obtain ⟨w, hw⟩ := C23_history demoL_WF 0 hσ
  refine ⟨w, fun sched => C86_finish demoL_WF 0 hσ hw (fun u => if u = 1 then some true else if u = 2 then some false else none) _
    (fun i => ?_) (fun i => ?_) sched _⟩
  · cases i
    · exact filterLoop_within (own := fun u => if u = 1 then some true else if u = 2 then some false else none) rfl rfl _ _
    · exact filterLoop_within (own := fun u => if u = 1 then some true else if u = 2 then some false else none) rfl rfl _ _
  · cases i
    · obtain ⟨σ', h, -⟩ := filterLoop_spec (L := demoL) (show (0 : Nat) ≠ 2 by decide) demoCell
        (fun c => decide (c 0 0 = 5) == false) h0 h2 (by decide)
      exact ⟨σ', (), h⟩
    · obtain ⟨σ', h, -⟩ := filterLoop_spec (L := demoL) (show (0 : Nat) ≠ 1 by decide) demoCell
        (fun c => decide (c 0 0 = 5) == true) h0 h1 (by decide)
      exact ⟨σ', (), h⟩

/-- Any number of threads create a grid each, of any size. -/
example (d : Nat → Ext) (sched : List Nat) := C86_grid_partial (C := demoC) (dv := 0) demoL_WF (ops := []) trivial rfl some
  (fun i => lastCell i (d i) demoCell)
  (fun i => by
    refine ⟨by simp [gridWrites], by simp [gridReads], fun out => ?_⟩
    cases out <;> first
      | trivial
      | (refine ⟨by simp [gridWrites], by simp [gridReads], fun out => ?_⟩
         cases out with
         | triple e =>
           simp only
           split
           · refine ⟨by simp [gridWrites], by simp [gridReads], fun out => ?_⟩
             cases out with
             | cells l =>
               cases l with
               | nil => trivial
               | cons c l => cases l <;> trivial
             | _ => trivial
           · trivial
         | _ => trivial))
  (fun a h i => by cases h; exact lastCell_safe rfl (d i) demoCell) sched

/-- Any number of threads create a vector each. -/
example (n : Nat → Nat) (sched : List Nat) := C86_vector_partial (C := vecC) (dv := 0) vecC_WF vecC_one vecC_roomy (ops := []) trivial rfl some
  (fun i => lastElement i (n i) demoCell)
  (fun i => by
    refine ⟨by simp [vecWrites], by simp [vecReads], fun out => ?_⟩
    cases out <;> first
      | trivial
      | (refine ⟨by simp [vecWrites], by simp [vecReads], fun out => ?_⟩
         cases out with
         | nat e =>
           simp only
           split
           · refine ⟨by simp [vecWrites], by simp [vecReads], fun out => ?_⟩
             cases out with
             | cells l =>
               cases l with
               | nil => trivial
               | cons c l => cases l <;> trivial
             | _ => trivial
           · trivial
         | _ => trivial))
  (fun σ h i => by obtain ⟨-, rfl⟩ := h; exact lastElement_safe rfl rfl (n i) demoCell) sched

end
end LFA.Props
