import Verif.Props.GridMemory

/-
  C86: which memory a call on vectors accesses.
-/
set_option linter.unusedSectionVars false
namespace LFA.Props
open LFA

section
variable {V : Type} [DecidableEq V] {C : Cfg V} {M : Mem V}

/-- As `GR`, for vectors. -/
def VM (M : Mem V) (p q : VS V) : Prop := p.1 = q.1 ∧ (∀ id, p.1.g.data = some id → M.W id) ∧ HR M p.2 q.2

theorem withVec_mem {α : Type} {r r' : Res (Heap V) α} (h : RL (HR M) r r') {v : SVec} (hd : ∀ id, v.g.data = some id → M.W id) :
    RL (VM M) (Res.withVec v r) (Res.withVec v r') := by
  cases r <;> cases r' <;> first
    | exact h.elim
    | exact ⟨h.1, rfl, hd, h.2⟩
    | exact h

theorem dtor_mem {x y : Heap V} (h : HR M x y) {g : Grid} (hd : ∀ id, g.data = some id → M.W id) :
    RL (HR M) (g.dtor C x) (g.dtor C y) := by
  have := destroy_mem (C := C) h hd
  simp only [Grid.dtor]
  revert this
  cases g.destroyAndDeallocate C x <;> cases g.destroyAndDeallocate C y <;> intro this <;> first
    | exact this.elim
    | exact this
    | exact rfl

theorem unwind_mem {x y : Heap V} (h : HR M x y) {ng : Grid} (hn : ∀ id, ng.data = some id → M.W id) {v : SVec}
    (hd : ∀ id, v.g.data = some id → M.W id) (e : Exc) : RL (VM M) (unwind C ng e v x) (unwind C ng e v y) := by
  have := dtor_mem (C := C) h hn
  simp only [unwind]
  revert this
  cases ng.dtor C x <;> cases ng.dtor C y <;> intro this <;> first
    | exact this.elim
    | exact ⟨rfl, rfl, hd, this.2⟩
    | exact rfl
    | exact this

theorem gridNew_mem {x y : Heap V} (h : HR M x y) (d : Ext) : RL (GR M) (Grid.new C d x) (Grid.new C d y) :=
  resize_mem h (by rintro id ⟨⟩) d

theorem new_mem {x y : Heap V} (h : HR M x y) (n : Nat) : RL (VM M) (SVec.new C n x) (SVec.new C n y) := by
  have h1 := gridNew_mem (C := C) h ⟨n, 1, 1⟩
  simp only [SVec.new]
  revert h1
  cases Grid.new C ⟨n, 1, 1⟩ x <;> cases Grid.new C ⟨n, 1, 1⟩ y <;> intro h1 <;> first
    | exact h1.elim
    | (obtain ⟨rfl, h1, h2, h3⟩ := h1; exact ⟨rfl, by simp only [h1], h2, h3⟩)
    | exact h1

theorem vcopyCtor_mem {x y : Heap V} (h : HR M x y) {o : SVec} (ho : ∀ id, o.g.data = some id → M.K id) :
    RL (VM M) (SVec.copyCtor C o x) (SVec.copyCtor C o y) := by
  have h1 := copyCtor_mem (C := C) h ho
  simp only [SVec.copyCtor]
  revert h1
  cases Grid.copyCtor C o.g x <;> cases Grid.copyCtor C o.g y <;> intro h1 <;> first
    | exact h1.elim
    | (obtain ⟨rfl, h1, h2, h3⟩ := h1; exact ⟨rfl, by simp only [h1], h2, h3⟩)
    | exact h1

theorem vassign_mem {x y : Heap V} (h : HR M x y) {v o : SVec} (hd : ∀ id, v.g.data = some id → M.W id)
    (ho : ∀ id, o.g.data = some id → M.K id) : RL (VM M) (v.assign C o x) (v.assign C o y) := by
  have h1 := assign_mem (C := C) h hd ho
  simp only [SVec.assign]
  revert h1
  cases v.g.assign C o.g x <;> cases v.g.assign C o.g y <;> intro h1 <;> first
    | exact h1.elim
    | (obtain ⟨rfl, h1, h2, h3⟩ := h1; exact ⟨rfl, by simp only [h1], h2, h3⟩)
    | exact h1

theorem newFill_mem {x y : Heap V} (h : HR M x y) (n : Nat) (c : Cell V) :
    RL (VM M) (SVec.newFill C n c x) (SVec.newFill C n c y) := by
  have h1 := gridNew_mem (C := C) h ⟨n, 1, 1⟩
  simp only [SVec.newFill]
  revert h1
  cases Grid.new C ⟨n, 1, 1⟩ x <;> cases Grid.new C ⟨n, 1, 1⟩ y <;> intro h1 <;> first
    | exact h1.elim
    | skip
  · rename_i p _ q
    obtain ⟨g, x⟩ := p
    obtain ⟨g', y⟩ := q
    obtain ⟨-, rfl, hd, h⟩ := h1
    have h2 : RL (HR M) (g.broadcast C 0 0 0 c n x) (g.broadcast C 0 0 0 c n y) := callbackMut_mem h hd _
    simp only at h2 ⊢
    revert h2
    cases g.broadcast C 0 0 0 c n x <;> cases g.broadcast C 0 0 0 c n y <;> intro h2 <;> first
      | exact h2.elim
      | exact ⟨rfl, rfl, hd, h2.2⟩
      | (obtain ⟨rfl, h2⟩ := h2; exact unwind_mem h2 hd hd _)
      | exact h2
  · obtain ⟨rfl, h1, h2, h3⟩ := h1
    exact ⟨rfl, by simp only [h1], h2, h3⟩
  · exact h1

theorem set_mem {x y : Heap V} (h : HR M x y) {v : SVec} (hd : ∀ id, v.g.data = some id → M.W id) (i : Nat) (c : Cell V) :
    RL (VM M) (v.set C i c x) (v.set C i c y) := withVec_mem (callbackMut_mem h hd _) hd

theorem reserve_mem {x y : Heap V} (h : HR M x y) {v : SVec} (hd : ∀ id, v.g.data = some id → M.W id) (m : Nat) :
    RL (VM M) (v.reserve C m x) (v.reserve C m y) := by
  have h1 := gridNew_mem (C := C) h ⟨m, 1, 1⟩
  simp only [SVec.reserve]
  revert h1
  cases Grid.new C ⟨m, 1, 1⟩ x <;> cases Grid.new C ⟨m, 1, 1⟩ y <;> intro h1 <;> first
    | exact h1.elim
    | skip
  · rename_i p _ q
    obtain ⟨ng, x⟩ := p
    obtain ⟨g', y⟩ := q
    obtain ⟨-, rfl, hn, h⟩ := h1
    simp only at hn h ⊢
    cases ng.ex with
    | none => exact rfl
    | some ex =>
      have h2 := resize_mem (C := C) h hn ⟨ex, 1, 1⟩
      simp only
      revert h2
      cases ng.resize C ⟨ex, 1, 1⟩ x <;> cases ng.resize C ⟨ex, 1, 1⟩ y <;> intro h2 <;> first
        | exact h2.elim
        | skip
      · rename_i p _ q
        obtain ⟨ng, x⟩ := p
        obtain ⟨g', y⟩ := q
        obtain ⟨-, rfl, hn, h⟩ := h2
        simp only at hn h ⊢
        have hb : v.g.data.bind x.blk = v.g.data.bind y.blk := by
          cases e : v.g.data with
          | none => rfl
          | some id => exact h.agree id (M.sub id (hd id e))
        rw [← hb]
        cases v.g.ex with
        | none => exact rfl
        | some oex =>
          cases v.g.data.bind x.blk with
          | none => exact rfl
          | some src =>
            have h3 : RL (HR M) (ng.load C [⟨0, 0, 0, v.n⟩] src oex x) (ng.load C [⟨0, 0, 0, v.n⟩] src oex y) := callbackMut_mem h hn _
            simp only
            revert h3
            cases ng.load C [⟨0, 0, 0, v.n⟩] src oex x <;> cases ng.load C [⟨0, 0, 0, v.n⟩] src oex y <;> intro h3 <;> first
              | exact h3.elim
              | skip
            · obtain ⟨-, h⟩ := h3
              have hp : (∀ id, (Grid.swap ng v.g).1.data = some id → M.W id) ∧ ∀ id, (Grid.swap ng v.g).2.data = some id → M.W id := by
                simp only [Grid.swap]; exact ⟨hd, hn⟩
              rename_i x _ y
              have h4 := dtor_mem (C := C) h hp.1
              simp only
              revert h4
              cases (Grid.swap ng v.g).1.dtor C x <;> cases (Grid.swap ng v.g).1.dtor C y <;> intro h4 <;> first
                | exact h4.elim
                | exact ⟨rfl, rfl, hp.2, h4.2⟩
                | exact rfl
                | exact h4
            · obtain ⟨rfl, h⟩ := h3
              exact unwind_mem h hn hd _
            · exact h3
      · obtain ⟨rfl, h3, h4, h5⟩ := h2
        simp only [← h3]
        exact unwind_mem h5 h4 hd _
      · exact h2
  · exact ⟨h1.1, rfl, hd, h1.2.2.2⟩
  · exact h1

theorem vresize_mem {x y : Heap V} (h : HR M x y) {v : SVec} (hd : ∀ id, v.g.data = some id → M.W id) (m : Nat) :
    RL (VM M) (v.resize C m x) (v.resize C m y) := by
  simp only [SVec.resize]
  split
  · exact (reserve_mem h hd m).bind fun _ p q hpq => ⟨rfl, by simp only [hpq.1], hpq.2.1, hpq.2.2⟩
  · exact ⟨rfl, rfl, hd, h⟩

theorem push_mem {x y : Heap V} (h : HR M x y) {v : SVec} (hd : ∀ id, v.g.data = some id → M.W id) (c : Cell V) :
    RL (VM M) (v.push C c x) (v.push C c y) := by
  simp only [SVec.push]
  cases v.g.ex with
  | none => exact rfl
  | some ex =>
    have h1 : RL (VM M) (if v.n = ex then v.reserve C (grow v.n) x else .ok () (v, x)) (if v.n = ex then v.reserve C (grow v.n) y else .ok () (v, y)) := by
      split
      · exact reserve_mem h hd _
      · exact ⟨rfl, rfl, hd, h⟩
    refine h1.bind fun _ p q hpq => ?_
    obtain ⟨v1, x⟩ := p
    obtain ⟨v2, y⟩ := q
    obtain ⟨e, hd, h⟩ := hpq
    cases e
    exact (set_mem h hd _ c).bind fun _ p q hpq => ⟨rfl, by simp only [hpq.1], hpq.2.1, hpq.2.2⟩

/-- Outcomes of a call in two worlds with the same vector objects. -/
def VWR (M : Mem V) : Except UB (VecWorld V × ArrOut V) → Except UB (VecWorld V × ArrOut V) → Prop
  | .ok (w, o), .ok (w2, o2) => o = o2 ∧ w.v = w2.v ∧ HR M w.h w2.h
  | .error u, .error v => u = v
  | _, _ => False

theorem ofVS_mem {α : Type} {w w2 : VecWorld V} (hg : w.v = w2.v) (s : Nat) (out : α → ArrOut V) {r r' : Res (VS V) α} (h : RL (VM M) r r') :
    VWR M (w.ofVS s out r) (w2.ofVS s out r') := by
  cases r <;> cases r' <;> first
    | exact h.elim
    | (obtain ⟨rfl, h1, -, h2⟩ := h; exact ⟨rfl, by simp only [hg, h1], h2⟩)
    | exact h

theorem vofCtor_mem {w w2 : VecWorld V} (hg : w.v = w2.v) (s : Nat) {r r' : Res (VS V) Unit} (h : RL (VM M) r r') :
    VWR M (w.ofCtor s r) (w2.ofCtor s r') := by
  cases r <;> cases r' <;> first
    | exact h.elim
    | (obtain ⟨rfl, h1, -, h2⟩ := h; exact ⟨rfl, by simp only [hg, h1], h2⟩)
    | exact h

theorem vstep_mem {w : VecWorld V} {k : Heap V} (op : VecOp V) (h : HR M w.h k)
    (hW : ∀ s ∈ vecWrites op, ∀ v id, w.v s = some v → v.g.data = some id → M.W id)
    (hK : ∀ s ∈ vecReads op, ∀ v id, w.v s = some v → v.g.data = some id → M.K id) :
    VWR M (w.step C op) (VecWorld.step C ⟨k, w.v⟩ op) := by
  have err : ∀ {u : UB}, VWR M (.error u) (.error u) := rfl
  cases op with
  | new s n =>
    simp only [VecWorld.step]
    cases w.v s with
    | some g => exact err
    | none => exact vofCtor_mem rfl s (new_mem h n)
  | newFill s n c =>
    simp only [VecWorld.step]
    cases w.v s with
    | some g => exact err
    | none => exact vofCtor_mem rfl s (newFill_mem h n c)
  | copy s t =>
    simp only [VecWorld.step, VecWorld.withV]
    cases w.v s with
    | some g => exact err
    | none =>
      simp only
      cases ht : w.v t with
      | none => exact err
      | some o =>
        exact vofCtor_mem rfl s (vcopyCtor_mem h (fun id hid => hK t (by simp [vecReads]) o id ht hid))
  | assign s t =>
    simp only [VecWorld.step, VecWorld.withV]
    cases hs : w.v s with
    | none => exact err
    | some v =>
      simp only
      cases ht : w.v t with
      | none => exact err
      | some o =>
        exact ofVS_mem rfl s _ (vassign_mem h (fun id hid => hW s (by simp [vecWrites]) v id hs hid)
          (fun id hid => hK t (by simp [vecReads]) o id ht hid))
  | destroy s =>
    simp only [VecWorld.step, VecWorld.withV]
    cases hs : w.v s with
    | none => exact err
    | some v =>
      have := dtor_mem (C := C) h (g := v.g) (fun id hid => hW s (by simp [vecWrites]) v id hs hid)
      simp only [SVec.dtor]
      revert this
      cases v.g.dtor C w.h <;> cases v.g.dtor C k <;> intro this <;> first
        | exact this.elim
        | exact ⟨rfl, rfl, this.2⟩
        | exact err
        | exact this
  | set s i c =>
    simp only [VecWorld.step, VecWorld.withV]
    cases hs : w.v s with
    | none => exact err
    | some v => exact ofVS_mem rfl s _ (set_mem h (fun id hid => hW s (by simp [vecWrites]) v id hs hid) i c)
  | get s i t =>
    simp only [VecWorld.step, VecWorld.withV]
    cases hs : w.v s with
    | none => exact err
    | some v =>
      have hd := fun id hid => hW s (by simp [vecWrites]) v id hs hid
      exact ofVS_mem rfl s _ (withVec_mem (callbackRead_mem h (fun id hid => M.sub id (hd id hid)) _) hd)
  | push s c =>
    simp only [VecWorld.step, VecWorld.withV]
    cases hs : w.v s with
    | none => exact err
    | some v => exact ofVS_mem rfl s _ (push_mem h (fun id hid => hW s (by simp [vecWrites]) v id hs hid) c)
  | pop s td =>
    simp only [VecWorld.step, VecWorld.withV]
    cases hs : w.v s with
    | none => exact err
    | some v => exact ofVS_mem rfl s _ (set_mem (v := ⟨v.g, if v.n = 0 then 18446744073709551615 else v.n - 1⟩) h (fun id hid => hW s (by simp [vecWrites]) v id hs hid) _ td)
  | clear s =>
    simp only [VecWorld.step, VecWorld.withV]
    cases hs : w.v s with
    | none => exact err
    | some v => exact ⟨rfl, rfl, h⟩
  | resize s n =>
    simp only [VecWorld.step, VecWorld.withV]
    cases hs : w.v s with
    | none => exact err
    | some v => exact ofVS_mem rfl s _ (vresize_mem h (fun id hid => hW s (by simp [vecWrites]) v id hs hid) n)
  | reserve s n =>
    simp only [VecWorld.step, VecWorld.withV]
    cases hs : w.v s with
    | none => exact err
    | some v => exact ofVS_mem rfl s _ (reserve_mem h (fun id hid => hW s (by simp [vecWrites]) v id hs hid) n)
  | size s | capacity s | empty s =>
    simp only [VecWorld.step, VecWorld.withV]
    cases w.v s with
    | none => exact err
    | some v => exact ⟨rfl, rfl, h⟩
  | poke s x X r k' val =>
    simp only [VecWorld.step, VecWorld.withV]
    cases hs : w.v s with
    | none => exact err
    | some v =>
      have hd := fun id hid => hW s (by simp [vecWrites]) v id hs hid
      exact ofVS_mem rfl s _ (withVec_mem (callbackMut_mem h hd _) hd)
  | peek s x X r k' =>
    simp only [VecWorld.step, VecWorld.withV]
    cases hs : w.v s with
    | none => exact err
    | some v =>
      have h1 := callbackRead_mem (C := C) h (g := v.g) (fun id hid => hK s (by simp [vecReads]) v id hs hid)
        (fun e b => peekFunctor C.L e x 0 0 X 0 0 r k' b)
      simp only
      revert h1
      cases v.g.callbackRead C (fun e b => peekFunctor C.L e x 0 0 X 0 0 r k' b) w.h <;>
        cases v.g.callbackRead C (fun e b => peekFunctor C.L e x 0 0 X 0 0 r k' b) k <;> intro h1 <;> first
        | exact h1.elim
        | (obtain ⟨rfl, h1⟩ := h1; exact ⟨rfl, rfl, h1⟩)
        | exact h1

/-- Buffer `id` belongs to one of the vectors in `l`. -/
def VecBufferOf (w : VecWorld V) (l : List Nat) (id : Nat) : Prop := ∃ s ∈ l, ∃ v, w.v s = some v ∧ v.g.data = some id

/-- C86, as `C86_grid_memory`, for vectors: also calls which enlarge the vector. -/
theorem C86_vector_memory (w : VecWorld V) (op : VecOp V) (k : Heap V) (hn : k.next = w.h.next)
    (hk : ∀ id, (VecBufferOf w (vecReads op) id ∨ VecBufferOf w (vecWrites op) id ∨ w.h.next ≤ id) → k.blk id = w.h.blk id) :
    match w.step C op, VecWorld.step C ⟨k, w.v⟩ op with
    | .ok (w', out), .ok (w2, out2) =>
      out2 = out ∧ w2.v = w'.v ∧
      (∀ id, id < w.h.next → ¬ VecBufferOf w (vecWrites op) id → w'.h.blk id = w.h.blk id ∧ w2.h.blk id = k.blk id) ∧
      ∀ id, VecBufferOf w (vecReads op) id ∨ VecBufferOf w (vecWrites op) id ∨ w.h.next ≤ id → w2.h.blk id = w'.h.blk id
    | .error u, .error u2 => u2 = u
    | _, _ => False := by
  let M : Mem V := ⟨w.h, k, fun id => VecBufferOf w (vecReads op) id ∨ VecBufferOf w (vecWrites op) id ∨ w.h.next ≤ id,
    fun id => VecBufferOf w (vecWrites op) id ∨ w.h.next ≤ id, fun id h => .inr h, fun id h => .inr h⟩
  have hR : HR M w.h k := ⟨hn.symm, Nat.le_refl _, fun id hid => (hk id hid).symm, fun _ _ => rfl, fun _ _ => rfl⟩
  have key := vstep_mem (C := C) (M := M) op hR (fun s hs g id h1 h2 => .inl ⟨s, hs, g, h1, h2⟩) (fun s hs g id h1 h2 => .inl ⟨s, hs, g, h1, h2⟩)
  revert key
  cases w.step C op <;> cases VecWorld.step C ⟨k, w.v⟩ op <;> intro key
  · exact key.symm
  · exact key.elim
  · exact key.elim
  · obtain ⟨k1, k2, k3⟩ := key
    refine ⟨k1.symm, k2.symm, fun id hid hno => ?_, fun id hid => (k3.agree id hid).symm⟩
    have hw : ¬ M.W id := by rintro (h | h); exact hno h; omega
    exact ⟨k3.left id hw, k3.right id hw⟩

theorem vstep_objects {w w' : VecWorld V} {op : VecOp V} {out : ArrOut V} (h : w.step C op = .ok (w', out)) {u : Nat} (hu : u ∉ vecWrites op) :
    w'.v u = w.v u := by
  have vs : ∀ {α : Type} {s : Nat} {o : α → ArrOut V} {r : Res (VS V) α}, u ≠ s → w.ofVS s o r = .ok (w', out) → w'.v u = w.v u := by
    intro α s o r hne h
    cases r <;> simp only [VecWorld.ofVS] at h <;> cases h <;> exact if_neg hne
  have ct : ∀ {s : Nat} {r : Res (VS V) Unit}, u ≠ s → w.ofCtor s r = .ok (w', out) → w'.v u = w.v u := by
    intro s r hne h
    cases r <;> simp only [VecWorld.ofCtor] at h <;> cases h <;> first | exact if_neg hne | rfl
  have pk : ∀ {α : Type} {s : Nat} {v : SVec} {o : α → ArrOut V} {r : Res (Heap V) α}, w.v s = some v →
      w.ofVS s o (Res.withVec v r) = .ok (w', out) → w'.v u = w.v u := by
    intro α s v o r hs h
    by_cases e : u = s
    · subst e
      cases r <;> simp only [Res.withVec, VecWorld.ofVS] at h <;> cases h <;> exact (if_pos rfl).trans hs.symm
    · cases r <;> simp only [Res.withVec, VecWorld.ofVS] at h <;> cases h <;> exact if_neg e
  cases op <;> simp only [vecWrites, List.mem_cons, List.not_mem_nil, or_false] at hu <;> simp only [VecWorld.step, VecWorld.withV] at h <;>
    (repeat' split at h) <;> first
    | exact vs hu h
    | exact ct hu h
    | exact pk (by assumption) h
    | (cases h <;> first | rfl | exact if_neg hu)

/-- C86, as `C86_grid_apart`, for vectors. -/
theorem C86_vector_apart (hL : C.L.WF) (h1 : OneD C.tr) (hr : Roomy C.tr) {dv : V} {ops : List (VecOp V)}
    (hleg : VecList.Legal C dv VecList.start ops) {w : VecWorld V} {outs : List (ArrOut V)} (hw : VecWorld.init.run C ops = .ok (w, outs))
    {u : Nat} {v : SVec} {id : Nat} (hv : w.v u = some v) (hd : v.g.data = some id) (op : VecOp V) (hu : u ∉ vecWrites op)
    {w' : VecWorld V} {out : ArrOut V} (h : w.step C op = .ok (w', out)) :
    w'.v u = some v ∧ w'.h.blk id = w.h.blk id ∧
    (u ∉ vecReads op → ∀ b : Block V, ∃ w2, VecWorld.step C ⟨w.h.set id b, w.v⟩ op = .ok (w2, out) ∧ w2.v = w'.v ∧ w2.h.blk id = some b ∧
      ∀ i, i ≠ id → w2.h.blk i = w'.h.blk i) := by
  obtain ⟨w0, outs0, τ, σ, e0, hrun, hR, hl⟩ := list_run hL h1 hr dv ops VR.init VL.init hleg
  rw [hw] at e0; injection e0 with e0; injection e0 with e0 e1; subst e0 e1
  have hlt : id < w.h.next := by
    rcases Nat.lt_or_ge id w.h.next with h | h
    · exact h
    · exfalso
      have h1 := hR.fresh id h
      have h2 := hR.slots u
      rw [hv] at h2
      cases ha : τ u with
      | none => rw [ha] at h2; cases h2
      | some av =>
        rw [ha] at h2
        obtain ⟨g, h3, h4⟩ := h2
        cases h3
        obtain ⟨id', b, h5, h6, -⟩ := h4.buf
        rw [hd] at h5; cases h5; rw [h1] at h6; cases h6
  have hno : ∀ l : List Nat, u ∉ l → ¬ VecBufferOf w l id := fun l hl ⟨s, hs, g', h1, h2⟩ => hl (hR.own u s v g' id hv h1 hd h2 ▸ hs)
  have k1 := C86_vector_memory (C := C) w op w.h rfl (fun _ _ => rfl)
  rw [show (⟨w.h, w.v⟩ : VecWorld V) = w from rfl, h] at k1
  refine ⟨(vstep_objects h hu).trans hv, (k1.2.2.1 id hlt (hno _ hu)).1, fun hr b => ?_⟩
  have k2 := C86_vector_memory (C := C) w op (w.h.set id b) rfl (fun i hi => by
    have : i ≠ id := by
      rintro rfl
      rcases hi with hi | hi | hi
      · exact hno _ hr hi
      · exact hno _ hu hi
      · omega
    simp [Heap.set, this])
  rw [h] at k2
  cases e : VecWorld.step C ⟨w.h.set id b, w.v⟩ op with
  | error v => rw [e] at k2; exact k2.elim
  | ok p =>
    rw [e] at k2
    obtain ⟨w2, out2⟩ := p
    obtain ⟨rfl, m2, m3, m4⟩ := k2
    refine ⟨w2, rfl, m2, (m3 id hlt (hno _ hu)).2.trans (by simp [Heap.set]), fun i hi => ?_⟩
    by_cases hK : VecBufferOf w (vecReads op) i ∨ VecBufferOf w (vecWrites op) i ∨ w.h.next ≤ i
    · exact m4 i hK
    · obtain ⟨q1, q2⟩ := m3 i (by omega) (fun h => hK (.inr (.inl h)))
      rw [q1, q2]; simp [Heap.set, hi]

end

/-- A thread creates a vector while another one writes its own, of seven elements. -/
example : ∃ (w : VecWorld Int) (v : SVec) (id : Nat) (w' : VecWorld Int), VecIs vecC w 0 (List.replicate 7 demoCell) ∧ w.v 0 = some v ∧
    v.g.data = some id ∧ w.step vecC (.new 1 3) = .ok (w', .unit) ∧ w'.h.blk id = w.h.blk id ∧
    ∀ b', ∃ w2, VecWorld.step vecC ⟨w.h.set id b', w.v⟩ (.new 1 3) = .ok (w2, .unit) ∧ w2.h.blk id = some b' := by
  obtain ⟨w, hV, h0, h1⟩ := vec_state
  obtain ⟨w', k, -⟩ := C28_new vecC_WF vecC_one vecC_roomy hV h1 (n := 3) (e := ⟨8, 1, 1⟩) rfl (.inl rfl)
  obtain ⟨ops, outs, hleg, hw⟩ := hV
  obtain ⟨w0, outs0, τ, σ, e0, -, hR, -⟩ := list_run vecC_WF vecC_one vecC_roomy 0 ops VR.init VL.init hleg
  rw [hw] at e0; injection e0 with e0; injection e0 with e0 e1; subst e0 e1
  have hv : ∃ v, w.v 0 = some v := by
    have := h0.size
    cases e : w.v 0 with
    | none => simp [VecWorld.step, VecWorld.withV, e] at this
    | some v => exact ⟨v, rfl⟩
  obtain ⟨v, hv⟩ := hv
  have hs := hR.slots 0
  rw [hv] at hs
  cases ha : τ 0 with
  | none => rw [ha] at hs; cases hs
  | some av =>
    rw [ha] at hs
    obtain ⟨g, h3, h4⟩ := hs
    cases h3
    obtain ⟨id, b, hd, -⟩ := h4.buf
    obtain ⟨q1, q2, q3⟩ := C86_vector_apart vecC_WF vecC_one vecC_roomy hleg hw hv hd (.new 1 3) (by simp [vecWrites]) k
    refine ⟨w, _, id, w', h0, hv, hd, k, q2, fun b' => ?_⟩
    obtain ⟨w2, m1, -, m2, -⟩ := q3 (by simp [vecReads]) b'
    exact ⟨w2, m1, m2⟩

end LFA.Props
