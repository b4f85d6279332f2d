import Verif.Props.Concurrent

/-
  C85, C86: clients and threads which also copy and assign vectors, and vectors of structs with arbitrary members.
-/
set_option linter.unusedSectionVars false
namespace LFA.Props
section
variable {V : Type} [DecidableEq V] {C : Cfg V} {dv : V} {ρ ρ' ι : Type}

/-- What a client does to vectors as `VecSpec` describes them; `none` if it violates a contract. -/
def vecAllowed (C : Cfg V) (dv : V) : Prog (VecOp V) (ArrOut V) ρ → VecSpec.State V → Option (VecSpec.State V × ρ)
  | .ret r, σ => some (σ, r)
  | .call op k, σ =>
    match VecSpec.step C dv σ op with
    | none => none
    | some (σ', out) => vecAllowed C dv (k out) σ'

theorem vec_exec_refines (hL : C.L.WF) (h1 : OneD C.tr) (dv : V) : ∀ (p : Prog (VecOp V) (ArrOut V) ρ) {w : VecWorld V} {σ σ' : VecSpec.State V}
    {r : ρ}, VR C w σ → vecAllowed C dv p σ = some (σ', r) → ∃ w', p.exec (fun w op => VecWorld.step C w op) w = .ok (w', r) ∧ VR C w' σ'
  | .ret r', w, σ, σ', r, hR, h => by cases h; exact ⟨w, rfl, hR⟩
  | .call op k, w, σ, σ', r, hR, h => by
    rw [vecAllowed] at h
    cases e : VecSpec.step C dv σ op with
    | none => rw [e] at h; cases h
    | some q =>
      rw [e] at h
      obtain ⟨w1, h1', h2⟩ := vec_step_refines hL h1 dv hR op e
      obtain ⟨w', k1, k2⟩ := vec_exec_refines hL h1 dv (k q.2) h2 h
      exact ⟨w', by rw [Prog.exec, h1']; exact k1, k2⟩

/-- C85, vectors, all calls: a client which respects the contracts of `VecSpec` gets from soa_vectors the results which `VecSpec` tells. -/
theorem C85_vector_all (hL : C.L.WF) (h1 : OneD C.tr) (dv : V) (p : Prog (VecOp V) (ArrOut V) ρ) {σ : VecSpec.State V} {r : ρ}
    (h : vecAllowed C dv p VecSpec.start = some (σ, r)) : ∃ w, p.exec (fun w op => VecWorld.step C w op) VecWorld.init = .ok (w, r) := by
  obtain ⟨w, k, -⟩ := vec_exec_refines hL h1 dv p VR.init h
  exact ⟨w, k⟩

/-! ### Threads -/

abbrev vecPre (C : Cfg V) (dv : V) (σ : VecSpec.State V) (op : VecOp V) : Prop := ∃ σ' out, VecSpec.step C dv σ op = some (σ', out)
abbrev vecPost (C : Cfg V) (dv : V) (σ : VecSpec.State V) (op : VecOp V) (σ' : VecSpec.State V) (out : ArrOut V) : Prop :=
  VecSpec.step C dv σ op = some (σ', out)

theorem vec_shape {σ τ σ' : VecSpec.State V} {op : VecOp V} {out : ArrOut V} (hag : ∀ s, s ∈ vecReads op ∨ s ∈ vecWrites op → τ s = σ s)
    (h : VecSpec.step C dv σ op = some (σ', out)) :
    VecSpec.step C dv τ op = some (fun s => if s ∈ vecWrites op then σ' s else τ s, out) ∧ ∀ s, s ∉ vecWrites op → σ' s = σ s := by
  have mk1 : ∀ (s : Nat) (x : Option (AVec V)) {o : ArrOut V}, 
      (some (World.upd τ s x, o) = some (fun u => if u ∈ [s] then World.upd σ s x u else τ u, o)) ∧ ∀ u, u ∉ [s] → World.upd σ s x u = σ u := by
    intro s x o
    refine ⟨?_, fun u hu => ?_⟩
    · congr 2
      funext u
      by_cases e : u = s <;> simp [World.upd, e]
    · simp only [List.mem_singleton] at hu
      simp [World.upd, hu]
  have mk2 : ∀ {s : Nat} {o : ArrOut V}, τ s = σ s → (some (τ, o) = some (fun u => if u ∈ [s] then σ u else τ u, o)) ∧ ∀ u, u ∉ [s] → σ u = σ u := by
    intro s o e
    refine ⟨?_, fun _ _ => rfl⟩
    congr 2
    funext u
    by_cases eu : u = s <;> simp [eu, e]
  have mk3 : ∀ {s : Nat} {a : AVec V} {o : ArrOut V}, τ s = some a → σ s = some a →
      (some (World.upd τ s (some a), o) = some (fun u => if u ∈ ([] : List Nat) then World.upd σ s (some a) u else τ u, o)) ∧
        ∀ u, u ∉ ([] : List Nat) → World.upd σ s (some a) u = σ u := by
    intro s a o e1 e2
    refine ⟨?_, fun u _ => ?_⟩
    · congr 2
      funext u
      by_cases eu : u = s <;> simp [World.upd, eu, e1]
    · by_cases eu : u = s <;> simp [World.upd, eu, e2]
  have onV : ∀ {s : Nat} {f : AVec V → Option (AVec V × ArrOut V)} {σ' : VecSpec.State V} {out : ArrOut V}, τ s = σ s →
      VecSpec.onVec σ s f = some (σ', out) →
      VecSpec.onVec τ s f = some (fun u => if u ∈ [s] then σ' u else τ u, out) ∧ ∀ u, u ∉ [s] → σ' u = σ u := by
    intro s f σ' out e h
    unfold VecSpec.onVec at h ⊢
    cases hs : σ s with
    | none => rw [hs] at h; cases h
    | some a =>
      rw [hs] at h; rw [e, hs]
      simp only at h ⊢
      cases hf : f a with
      | none => rw [hf] at h; cases h
      | some q => rw [hf] at h; cases h; exact mk1 s _
  have roV : ∀ {s : Nat} {f : AVec V → Option (AVec V × ArrOut V)} {σ' : VecSpec.State V} {out : ArrOut V}, τ s = σ s →
      (∀ a q, f a = some q → q.1 = a) → VecSpec.onVec σ s f = some (σ', out) →
      VecSpec.onVec τ s f = some (fun u => if u ∈ ([] : List Nat) then σ' u else τ u, out) ∧ ∀ u, u ∉ ([] : List Nat) → σ' u = σ u := by
    intro s f σ' out e hf0 h
    unfold VecSpec.onVec at h ⊢
    cases hs : σ s with
    | none => rw [hs] at h; cases h
    | some a =>
      rw [hs] at h; rw [e, hs]
      simp only at h ⊢
      cases hf : f a with
      | none => rw [hf] at h; cases h
      | some q =>
        have := hf0 a q hf
        obtain ⟨a', o⟩ := q
        simp only at this; subst this
        rw [hf] at h; cases h; exact mk3 (e.trans hs) hs
  have cr : ∀ {s n : Nat} {c : Cell V} {σ' : VecSpec.State V} {out : ArrOut V}, τ s = σ s → VecSpec.create C σ s n c = some (σ', out) →
      VecSpec.create C τ s n c = some (fun u => if u ∈ [s] then σ' u else τ u, out) ∧ ∀ u, u ∉ [s] → σ' u = σ u := by
    intro s n c σ' out e h
    unfold VecSpec.create at h ⊢
    cases hs : σ s with
    | some a => rw [hs] at h; cases h
    | none =>
      rw [hs] at h; rw [e, hs]
      simp only at h ⊢
      cases hz : selectSizes C.tr ⟨n, 1, 1⟩ with
      | error x => rw [hz] at h; cases h; exact mk2 e
      | ok x => rw [hz] at h; cases h; exact mk1 s _
  cases op with
  | new s n => exact cr (hag s (by simp [vecWrites])) h
  | newFill s n c => exact cr (hag s (by simp [vecWrites])) h
  | copy s t =>
    have e1 := hag s (by simp [vecWrites])
    have e2 := hag t (by simp [vecReads])
    simp only [VecSpec.step] at h ⊢
    rw [e1, e2]
    split at h
    · cases h; exact mk1 s _
    · cases h
  | assign s t =>
    have e1 := hag s (by simp [vecWrites])
    have e2 := hag t (by simp [vecReads])
    simp only [VecSpec.step] at h ⊢
    rw [e1, e2]
    split at h
    · cases h; exact mk1 s _
    · cases h
  | destroy s =>
    have e1 := hag s (by simp [vecWrites])
    simp only [VecSpec.step] at h ⊢
    rw [e1]
    split at h
    · cases h; exact mk1 s _
    · cases h
  | size s => exact roV (hag s (by simp [vecReads])) (fun a q h => by cases h; rfl) h
  | capacity s => exact roV (hag s (by simp [vecReads])) (fun a q h => by cases h; rfl) h
  | empty s => exact roV (hag s (by simp [vecReads])) (fun a q h => by cases h; rfl) h
  | peek s x X r k =>
    refine roV (hag s (by simp [vecReads])) (fun a q h => ?_) h
    split at h
    · split at h
      · cases h; rfl
      · cases h
    · cases h
  | set s i c => exact onV (hag s (by simp [vecWrites])) h
  | get s i t => exact onV (hag s (by simp [vecWrites])) h
  | push s c => exact onV (hag s (by simp [vecWrites])) h
  | pop s td => exact onV (hag s (by simp [vecWrites])) h
  | clear s => exact onV (hag s (by simp [vecWrites])) h
  | resize s m => exact onV (hag s (by simp [vecWrites])) h
  | reserve s m => exact onV (hag s (by simp [vecWrites])) h
  | poke s x X r k v => exact onV (hag s (by simp [vecWrites])) h

theorem vecSpec_local : Prog.Local vecReads vecWrites (vecPre C dv) (vecPost C dv) := by
  refine ⟨?_, ?_, ?_⟩
  · rintro a b op hag ⟨σ', out, h⟩
    exact ⟨_, _, (vec_shape hag h).1⟩
  · intro a b a' op out hag h
    exact ⟨_, (vec_shape hag h).1, fun s hs => by simp only [if_pos hs], fun s hs => by simp only [if_neg hs]⟩
  · intro a a' op out h
    exact (vec_shape (fun _ _ => rfl) h).2

theorem vec_safe : ∀ (p : Prog (VecOp V) (ArrOut V) ρ) {σ σ' : VecSpec.State V} {r : ρ}, vecAllowed C dv p σ = some (σ', r) →
    p.Safe (vecPre C dv) (vecPost C dv) σ ∧ ∀ r' σ'', p.Allows (vecPost C dv) σ r' σ'' → r' = r ∧ σ'' = σ'
  | .ret r', σ, σ', r, h => by cases h; exact ⟨trivial, fun _ _ h => h⟩
  | .call op k, σ, σ', r, h => by
    rw [vecAllowed] at h
    cases e : VecSpec.step C dv σ op with
    | none => rw [e] at h; cases h
    | some q =>
      rw [e] at h
      obtain ⟨k1, k2⟩ := vec_safe (k q.2) h
      have det : ∀ {a' out}, vecPost C dv σ op a' out → a' = q.1 ∧ out = q.2 := by
        intro a' out hp
        rw [vecPost, e] at hp
        injection hp with hp; subst hp; exact ⟨rfl, rfl⟩
      refine ⟨⟨⟨_, _, e⟩, fun a' out hp => ?_⟩, fun r' σ'' hall => ?_⟩
      · obtain ⟨rfl, rfl⟩ := det hp; exact k1
      · obtain ⟨a', out, hp, hall⟩ := hall
        obtain ⟨rfl, rfl⟩ := det hp
        exact k2 _ _ hall

/-- A client sees only the vectors it may use. -/
theorem vecAllowed_local {own : Nat → Option ι} {i : ι} : ∀ (p : Prog (VecOp V) (ArrOut V) ρ), p.Within vecReads vecWrites own i →
    ∀ {σ τ σ' : VecSpec.State V} {r : ρ}, (∀ s, own s = some i ∨ own s = none → τ s = σ s) → vecAllowed C dv p σ = some (σ', r) →
      ∃ τ', vecAllowed C dv p τ = some (τ', r)
  | .ret r', _, σ, τ, σ', r, _, h => by cases h; exact ⟨τ, rfl⟩
  | .call op k, hw, σ, τ, σ', r, hag, h => by
    rw [vecAllowed] at h ⊢
    cases e : VecSpec.step C dv σ op with
    | none => rw [e] at h; cases h
    | some q =>
      rw [e] at h
      obtain ⟨e1, e2⟩ := vec_shape (τ := τ) (fun s hs => hag s (hs.elim (hw.2.1 s) fun h => .inl (hw.1 s h))) e
      rw [e1]
      refine vecAllowed_local (k q.2) (hw.2.2 q.2) (fun s hs => ?_) h
      by_cases hs' : s ∈ vecWrites op
      · rw [if_pos hs']
      · rw [if_neg hs', e2 s hs']; exact hag s hs

/-- C86, vectors, all calls: several threads each run a client that changes vectors which no other thread uses, and reads these and vectors
    which no thread changes. Started in any state `w` which a program has reached, they never run into undefined behaviour, whatever turns
    they take; a thread which has finished has the result it has if it runs alone, and whatever it did next with its vectors would have
    the result it has then. -/
theorem C86_vector_all [DecidableEq ι] (hL : C.L.WF) (h1 : OneD C.tr) (dv : V) {ops : List (VecOp V)} {σ : VecSpec.State V}
    {outs : List (ArrOut V)} (hσ : VecSpec.run C dv VecSpec.start ops = some (σ, outs)) {w : VecWorld V}
    (hw : VecWorld.init.run C ops = .ok (w, outs)) (own : Nat → Option ι) (P : ι → Prog (VecOp V) (ArrOut V) ρ)
    (hown : ∀ i, (P i).Within vecReads vecWrites own i) (hP : ∀ i, ∃ σ' r, vecAllowed C dv (P i) σ = some (σ', r)) (sched : List ι) :
    ∃ w' P', Prog.interleave (fun w op => VecWorld.step C w op) sched P w = .ok (w', P') ∧
      ∀ i r, P' i = .ret r → ∃ w1, (P i).exec (fun w op => VecWorld.step C w op) w = .ok (w1, r) ∧
        ∀ (Q : Prog (VecOp V) (ArrOut V) ρ'), Q.Within vecReads vecWrites own i →
          (∀ σ', vecAllowed C dv (P i) σ = some (σ', r) → ∃ σ'' r', vecAllowed C dv Q σ' = some (σ'', r')) →
          ∃ w2 w3 r', Q.exec (fun w op => VecWorld.step C w op) w1 = .ok (w2, r') ∧
            Q.exec (fun w op => VecWorld.step C w op) w' = .ok (w3, r') := by
  obtain ⟨w0, e0, hR⟩ := vec_run_refines hL h1 dv ops VR.init hσ
  rw [hw] at e0; injection e0 with e0; injection e0 with e0 _; subst e0
  obtain ⟨w', P', a', b', k1, k2, k3, k4⟩ := Prog.interleave_refines (R := VR C) (own := own) (vecSpec_local (C := C) (dv := dv))
    (step := fun w op => VecWorld.step C w op)
    (fun op hR hp => by
      obtain ⟨σ', out, hp⟩ := hp
      obtain ⟨w', k1, k2⟩ := vec_step_refines hL h1 dv hR op hp
      exact ⟨w', out, σ', k1, hp, k2⟩)
    P σ sched P (fun _ => σ) hR (fun i => by obtain ⟨σ', r, h⟩ := hP i; exact (vec_safe _ h).1) hown (fun _ _ _ => rfl)
    (fun _ _ _ h => h)
  refine ⟨w', P', k1, fun i r hr => ?_⟩
  obtain ⟨σ', r', h⟩ := hP i
  have hall := k4 i r (b' i) (by rw [hr]; exact ⟨rfl, rfl⟩)
  obtain ⟨rfl, hb⟩ := (vec_safe _ h).2 _ _ hall
  obtain ⟨w1, m1, m2⟩ := vec_exec_refines hL h1 dv (P i) hR h
  refine ⟨w1, m1, fun Q hQ hA => ?_⟩
  obtain ⟨σ'', r', hq⟩ := hA σ' h
  obtain ⟨w2, n1, -⟩ := vec_exec_refines hL h1 dv Q m2 hq
  obtain ⟨τ', hq'⟩ := vecAllowed_local Q hQ (τ := a') (fun s hs => by rw [← k3 i s hs, hb]) hq
  obtain ⟨w3, n2, -⟩ := vec_exec_refines hL h1 dv Q k2 hq'
  exact ⟨w2, w3, r', n1, n2⟩

/-! ### Examples -/

/-- Copies a vector; if the copy has elements the last one is overwritten and read. -/
def copier (s t : Nat) (c : Cell V) : Prog (VecOp V) (ArrOut V) (Option (Cell V)) :=
  .call (.copy s t) fun _ => .call (.size s) fun
    | .nat n => if 0 < n then
        .call (.set s (n - 1) c) fun _ => .call (.get s (n - 1) c) fun
          | .cells [c] => .ret (some c)
          | _ => .ret none
      else .ret none
    | _ => .ret none

theorem copier_allowed {σ : VecSpec.State V} {s t n : Nat} {a : AVec V} (hs : σ s = none) (ht : σ t = some a) (hn : a.n = n + 1)
    (hx : n < a.dim) (hx' : n < a.ext) (hc : (a.cells n).isSome = true) (c : Cell V) :
    ∃ σ' c', vecAllowed C dv (copier s t c) σ = some (σ', some c') := by
  obtain ⟨d, hd⟩ := Option.isSome_iff_exists.1 hc
  simp only [copier, vecAllowed, VecSpec.step, hs, ht, VecSpec.onVec, World.upd, if_true, Option.map_some, hn, Nat.succ_pos,
    Nat.add_sub_cancel]
  rw [if_pos ⟨hx', .inr (by simp [hx, hd])⟩]
  simp [VecSpec.put, vecAllowed, World.upd]

theorem copier_within {own : Nat → Option ι} {i : ι} {s t : Nat} (hs : own s = some i) (ht : own t = none) (c : Cell V) :
    (copier s t c).Within vecReads vecWrites own i := by
  refine ⟨by simp [vecWrites, hs], by simp [vecReads, ht], fun _ => ⟨by simp [vecWrites], by simp [vecReads, hs], fun out => ?_⟩⟩
  cases out with
  | nat n =>
    simp only
    split
    · refine ⟨by simp [vecWrites, hs], by simp [vecReads], fun _ => ⟨by simp [vecWrites, hs], by simp [vecReads], fun out => ?_⟩⟩
      cases out with
      | cells l =>
        cases l with
        | nil => trivial
        | cons c l => cases l <;> trivial
      | _ => trivial
    · trivial
  | _ => trivial

/-- Any number of threads copy one vector, change the copies and read them. -/
example : ∃ w : VecWorld Int, ∀ sched : List Nat, ∃ w' P', Prog.interleave (fun w op => VecWorld.step vecC w op) sched
    (fun i => copier (i + 1) 0 (fun _ _ => (i : Int))) w = .ok (w', P') := by
  have hσ : ∃ σ outs, VecSpec.run vecC 0 VecSpec.start [.newFill 0 3 demoCell] = some (σ, outs) ∧
      σ 0 = some (VecSpec.fill 3 8 demoCell) ∧ ∀ i, σ (i + 1) = none := ⟨_, _, rfl, rfl, fun _ => rfl⟩
  obtain ⟨σ, outs, hσ, h0, h⟩ := hσ
  obtain ⟨w, hw, -⟩ := vec_run_refines vecC_WF vecC_one 0 _ VR.init hσ
  refine ⟨w, fun sched => ?_⟩
  obtain ⟨w', P', k, -⟩ := C86_vector_all (ρ' := Unit) vecC_WF vecC_one 0 hσ hw (fun u => if u = 0 then none else some (u - 1))
    (fun i => copier (i + 1) 0 (fun _ _ => (i : Int))) (fun i => copier_within (by simp) (by simp) _)
    (fun i => by
      obtain ⟨σ', c', h⟩ := copier_allowed (C := vecC) (dv := 0) (h i) h0 (n := 2) rfl (by decide) (by decide) rfl (fun _ _ => (i : Int))
      exact ⟨σ', some c', h⟩) sched
  exact ⟨w', P', k⟩

/-- A client which creates a vector, copies it and changes the copy. -/
example : ∃ σ c, vecAllowed vecC 0 (.call (.newFill 0 3 demoCell) fun _ => copier 1 0 fun _ _ => 5) VecSpec.start = some (σ, some c) := by
  have h1 : VecSpec.step vecC 0 VecSpec.start (.newFill 0 3 demoCell) =
    some (World.upd VecSpec.start 0 (some (VecSpec.fill 3 8 demoCell)), .unit) := rfl
  rw [vecAllowed, h1]
  exact copier_allowed (n := 2) rfl rfl rfl (by decide) (by decide) rfl _

end
end LFA.Props
