import Verif.Props.Concurrent

/-
  C86: which memory a call on grids accesses.
-/
set_option linter.unusedSectionVars false
namespace LFA.Props
open LFA

section
variable {V : Type} [DecidableEq V] {C : Cfg V}

/-- Two runs of the same code, on different states. -/
def RL {σ α : Type} (rel : σ → σ → Prop) : Res σ α → Res σ α → Prop
  | .ok a x, .ok b y => a = b ∧ rel x y
  | .throw e x, .throw f y => e = f ∧ rel x y
  | .ub u, .ub v => u = v
  | _, _ => False

theorem RL.bind {σ α β : Type} {rel : σ → σ → Prop} {r r' : Res σ α} {f : α → σ → Res σ β} (h : RL rel r r')
    (hf : ∀ a x y, rel x y → RL rel (f a x) (f a y)) : RL rel (r.bind f) (r'.bind f) := by
  cases r <;> cases r' <;> first
    | exact h.elim
    | (obtain ⟨rfl, h⟩ := h; exact hf _ _ _ h)
    | exact h

/-- Memory of a call: `K` are the buffers it may access, `W` those it may change; both contain all buffers yet to be allocated. -/
structure Mem (V : Type) where
  h0 : Heap V
  k0 : Heap V
  K : Nat → Prop
  W : Nat → Prop
  sub : ∀ id, W id → K id
  new : ∀ id, h0.next ≤ id → W id

/-- The heaps agree on `K`, and differ from those at the beginning on `W` only. -/
structure HR (M : Mem V) (x y : Heap V) : Prop where
  next : x.next = y.next
  le : M.h0.next ≤ x.next
  agree : ∀ id, M.K id → x.blk id = y.blk id
  left : ∀ id, ¬ M.W id → x.blk id = M.h0.blk id
  right : ∀ id, ¬ M.W id → y.blk id = M.k0.blk id

/-- The same with `*this`, whose buffer may be changed. -/
def GR (M : Mem V) (p q : GS V) : Prop := p.1 = q.1 ∧ (∀ id, p.1.data = some id → M.W id) ∧ HR M p.2 q.2

variable {M : Mem V}

theorem HR.set {x y : Heap V} (h : HR M x y) {id : Nat} (hid : M.W id) (b : Block V) : HR M (x.set id b) (y.set id b) := by
  refine ⟨h.next, h.le, fun i hi => ?_, fun i hi => ?_, fun i hi => ?_⟩
  · by_cases e : i = id <;> simp [Heap.set, e, h.agree i hi]
  · have e : i ≠ id := by rintro rfl; exact hi hid
    simp [Heap.set, e, h.left i hi]
  · have e : i ≠ id := by rintro rfl; exact hi hid
    simp [Heap.set, e, h.right i hi]

theorem onBuffer_mem {x y : Heap V} (h : HR M x y) {data : Option Nat} (hd : ∀ id, data = some id → M.W id)
    (f : Block V → Except UB (Block V)) : RL (HR M) (onBuffer data f x) (onBuffer data f y) := by
  cases data with
  | none =>
    simp only [onBuffer]
    cases f (Block.fresh 0) with
    | ok b => exact ⟨rfl, h⟩
    | error u => exact rfl
  | some id =>
    simp only [onBuffer, ← h.agree id (M.sub id (hd id rfl))]
    cases x.blk id with
    | none => exact rfl
    | some b =>
      simp only
      cases f b with
      | ok b' => exact ⟨rfl, h.set (hd id rfl) b'⟩
      | error u => exact rfl

theorem callbackMut_mem {x y : Heap V} (h : HR M x y) {g : Grid} (hd : ∀ id, g.data = some id → M.W id)
    (f : Ext → Block V → Except UB (Block V)) : RL (HR M) (g.callbackMut C f x) (g.callbackMut C f y) := by
  simp only [Grid.callbackMut]
  cases selectSizes C.tr g.dim with
  | error e => exact ⟨rfl, h⟩
  | ok e => exact onBuffer_mem h hd (f e)

theorem callbackRead_mem {α : Type} {x y : Heap V} (h : HR M x y) {g : Grid} (hd : ∀ id, g.data = some id → M.K id)
    (f : Ext → Block V → Except UB α) : RL (HR M) (g.callbackRead C f x) (g.callbackRead C f y) := by
  simp only [Grid.callbackRead]
  cases selectSizes C.tr g.dim with
  | error e => exact ⟨rfl, h⟩
  | ok e =>
    simp only
    cases hg : g.data with
    | none =>
      simp only
      cases f e (Block.fresh 0) with
      | ok b => exact ⟨rfl, h⟩
      | error u => exact rfl
    | some id =>
      simp only [← h.agree id (hd id hg)]
      cases x.blk id with
      | none => exact rfl
      | some b =>
        simp only
        cases f e b with
        | ok b' => exact ⟨rfl, h⟩
        | error u => exact rfl

theorem withGrid_mem {α : Type} {r r' : Res (Heap V) α} (h : RL (HR M) r r') {g : Grid} (hd : ∀ id, g.data = some id → M.W id) :
    RL (GR M) (Res.withGrid g r) (Res.withGrid g r') := by
  cases r <;> cases r' <;> first
    | exact h.elim
    | exact ⟨h.1, rfl, hd, h.2⟩
    | exact h

theorem dealloc_mem {x y : Heap V} (h : HR M x y) {id : Nat} (hid : M.W id) (n : Nat) :
    RL (HR M) (Res.ofExcept (x.dealloc id n)) (Res.ofExcept (y.dealloc id n)) := by
  simp only [Heap.dealloc, ← h.agree id (M.sub id hid)]
  cases x.blk id with
  | none => exact rfl
  | some b =>
    simp only
    split
    · refine ⟨rfl, h.next, h.le, fun i hi => ?_, fun i hi => ?_, fun i hi => ?_⟩
      · by_cases e : i = id <;> simp [e, h.agree i hi]
      · have e : i ≠ id := by rintro rfl; exact hi hid
        simp [e, h.left i hi]
      · have e : i ≠ id := by rintro rfl; exact hi hid
        simp [e, h.right i hi]
    · exact rfl

theorem destroy_mem {x y : Heap V} (h : HR M x y) {g : Grid} (hd : ∀ id, g.data = some id → M.W id) :
    RL (HR M) (g.destroyAndDeallocate C x) (g.destroyAndDeallocate C y) := by
  simp only [Grid.destroyAndDeallocate]
  cases hg : g.data with
  | none => exact ⟨rfl, h⟩
  | some id =>
    refine (callbackMut_mem h hd _).bind fun _ x y h => ?_
    cases g.bs with
    | none => exact rfl
    | some n => exact dealloc_mem h (hd id hg) n

theorem alloc_mem {x y : Heap V} (h : HR M x y) (n : Nat) :
    (x.alloc n).1 = (y.alloc n).1 ∧ M.W (x.alloc n).1 ∧ HR M (x.alloc n).2 (y.alloc n).2 := by
  have hid : M.W x.next := M.new _ h.le
  refine ⟨h.next, hid, by simp [Heap.alloc, h.next], Nat.le_succ_of_le h.le, fun i hi => ?_, fun i hi => ?_, fun i hi => ?_⟩
  · simp only [Heap.alloc, ← h.next]
    split
    · rfl
    · exact h.agree i hi
  · have e : i ≠ x.next := by rintro rfl; exact hi hid
    simp [Heap.alloc, e, h.left i hi]
  · have e : i ≠ y.next := by rintro rfl; rw [← h.next] at hi; exact hi hid
    simp [Heap.alloc, e, h.right i hi]

theorem resize_mem {x y : Heap V} (h : HR M x y) {g : Grid} (hd : ∀ id, g.data = some id → M.W id) (d : Ext) :
    RL (GR M) (g.resize C d x) (g.resize C d y) := by
  simp only [Grid.resize]
  split
  · exact ⟨rfl, rfl, hd, h⟩
  · refine (withGrid_mem (destroy_mem h hd) hd).bind fun _ p q hpq => ?_
    obtain ⟨-, -, h⟩ := hpq
    cases selectSizes C.tr d with
    | error e => exact ⟨rfl, rfl, hd, h⟩
    | ok e =>
      obtain ⟨k1, k2, k3⟩ := alloc_mem h (byteSizeOf C.L e)
      simp only [← k1]
      have hd' : ∀ id, some (p.2.alloc (byteSizeOf C.L e)).1 = some id → M.W id := by rintro id ⟨⟩; exact k2
      exact withGrid_mem (callbackMut_mem k3 hd' _) hd'

theorem copyIn_mem {x y : Heap V} (h : HR M x y) {g other : Grid} (hd : ∀ id, g.data = some id → M.W id)
    (ho : ∀ id, other.data = some id → M.K id) : RL (GR M) (g.copyIn C other x) (g.copyIn C other y) := by
  refine withGrid_mem ?_ hd
  have core : ∀ es et, RL (HR M)
      (match other.data.map x.blk with
        | some none => .ub .dangling
        | _ => onBuffer g.data (copyFunctor C.L g.dim es et (srcBlock x other.data g.data)) x)
      (match other.data.map y.blk with
        | some none => .ub .dangling
        | _ => onBuffer g.data (copyFunctor C.L g.dim es et (srcBlock y other.data g.data)) y) := by
    intro es et
    cases e : other.data with
    | none => exact onBuffer_mem h hd _
    | some id =>
      have ea := h.agree id (ho id e)
      have es' : srcBlock x (some id) g.data = srcBlock y (some id) g.data := by simp only [srcBlock, ea]
      simp only [Option.map_some, ← ea, ← es']
      cases x.blk id with
      | none => exact rfl
      | some b => exact onBuffer_mem h hd _
  simp only [Grid.dualCallback]
  split
  · cases selectSizes C.tr other.dim with
    | error e => exact ⟨rfl, h⟩
    | ok e1 =>
      simp only
      cases selectSizes C.tr g.dim with
      | error e => exact ⟨rfl, h⟩
      | ok e2 => exact core e1 e2
  · split
    · exact ⟨rfl, h⟩
    · cases selectSizes C.tr other.dim with
      | error e => exact ⟨rfl, h⟩
      | ok e => exact core e e

theorem copyCtor_mem {x y : Heap V} (h : HR M x y) {other : Grid} (ho : ∀ id, other.data = some id → M.K id) :
    RL (GR M) (Grid.copyCtor C other x) (Grid.copyCtor C other y) := by
  simp only [Grid.copyCtor]
  cases other.bs with
  | none => exact rfl
  | some n =>
    obtain ⟨k1, k2, k3⟩ := alloc_mem h n
    simp only [← k1]
    have hd' : ∀ id, some (x.alloc n).1 = some id → M.W id := by rintro id ⟨⟩; exact k2
    refine (withGrid_mem (callbackMut_mem k3 hd' _) hd').bind fun _ p q hpq => ?_
    obtain ⟨h1, h2, h3⟩ := hpq
    rw [← h1]
    exact copyIn_mem h3 h2 ho

theorem assign_mem {x y : Heap V} (h : HR M x y) {g other : Grid} (hd : ∀ id, g.data = some id → M.W id)
    (ho : ∀ id, other.data = some id → M.K id) : RL (GR M) (g.assign C other x) (g.assign C other y) := by
  refine (resize_mem h hd other.dim).bind fun _ p q hpq => ?_
  obtain ⟨g1, x1⟩ := p
  obtain ⟨g2, y1⟩ := q
  obtain ⟨h1, h2, h3⟩ := hpq
  cases h1
  exact copyIn_mem h3 h2 ho

/-- Outcomes of a call in two worlds with the same grid objects. -/
def WR (M : Mem V) : Except UB (World V × Out V) → Except UB (World V × Out V) → Prop
  | .ok (w, o), .ok (w2, o2) => o = o2 ∧ w.g = w2.g ∧ HR M w.h w2.h
  | .error u, .error v => u = v
  | _, _ => False

theorem ofGS_mem {α : Type} {w w2 : World V} (hg : w.g = w2.g) (s : Nat) (out : α → Out V) {r r' : Res (GS V) α} (h : RL (GR M) r r') :
    WR M (w.ofGS s out r) (w2.ofGS s out r') := by
  cases r <;> cases r' <;> first
    | exact h.elim
    | (obtain ⟨rfl, h1, -, h2⟩ := h; exact ⟨rfl, by simp only [hg, h1], h2⟩)
    | exact h

theorem ofCtor_mem {w w2 : World V} (hg : w.g = w2.g) (s : Nat) {r r' : Res (GS V) Unit} (h : RL (GR M) r r') :
    WR M (w.ofCtor s r) (w2.ofCtor s r') := by
  cases r <;> cases r' <;> first
    | exact h.elim
    | (obtain ⟨rfl, h1, -, h2⟩ := h; exact ⟨rfl, by simp only [hg, h1], h2⟩)
    | exact h

theorem ofH_mem {α : Type} {w w2 : World V} (hg : w.g = w2.g) (out : α → Out V) {r r' : Res (Heap V) α} (h : RL (HR M) r r') :
    WR M (w.ofH out r) (w2.ofH out r') := by
  cases r <;> cases r' <;> first
    | exact h.elim
    | (obtain ⟨rfl, h⟩ := h; exact ⟨rfl, hg, h⟩)
    | exact h

theorem step_mem {w : World V} {k : Heap V} (op : Op V) (h : HR M w.h k)
    (hW : ∀ s ∈ gridWrites op, ∀ g id, w.g s = some g → g.data = some id → M.W id)
    (hK : ∀ s ∈ gridReads op, ∀ g id, w.g s = some g → g.data = some id → M.K id) :
    WR M (w.step C op) (World.step C ⟨k, w.g⟩ op) := by
  have err : ∀ {u : UB}, WR M (.error u) (.error u) := rfl
  cases op with
  | new s d =>
    simp only [World.step]
    cases w.g s with
    | some g => exact err
    | none => exact ofCtor_mem rfl s (resize_mem h (by rintro id ⟨⟩) d)
  | copy s t =>
    simp only [World.step, World.withG]
    cases w.g s with
    | some g => exact err
    | none =>
      simp only
      cases ht : w.g t with
      | none => exact err
      | some o => exact ofCtor_mem rfl s (copyCtor_mem h (fun id hid => hK t (by simp [gridReads]) o id ht hid))
  | assign s t =>
    simp only [World.step, World.withG]
    cases hs : w.g s with
    | none => exact err
    | some g =>
      simp only
      cases ht : w.g t with
      | none => exact err
      | some o =>
        exact ofGS_mem rfl s _ (assign_mem h (fun id hid => hW s (by simp [gridWrites]) g id hs hid)
          (fun id hid => hK t (by simp [gridReads]) o id ht hid))
  | swap s t =>
    simp only [World.step, World.withG]
    cases hs : w.g s with
    | none => exact err
    | some g =>
      simp only
      cases ht : w.g t with
      | none => exact err
      | some o => exact ⟨rfl, rfl, h⟩
  | resize s d =>
    simp only [World.step, World.withG]
    cases hs : w.g s with
    | none => exact err
    | some g => exact ofGS_mem rfl s _ (resize_mem h (fun id hid => hW s (by simp [gridWrites]) g id hs hid) d)
  | destroy s =>
    simp only [World.step, World.withG]
    cases hs : w.g s with
    | none => exact err
    | some g =>
      have := destroy_mem (C := C) h (g := g) (fun id hid => hW s (by simp [gridWrites]) g id hs hid)
      simp only [Grid.dtor]
      revert this
      cases g.destroyAndDeallocate C w.h <;> cases g.destroyAndDeallocate C k <;> intro this <;> first
        | exact this.elim
        | exact ⟨rfl, rfl, this.2⟩
        | exact err
        | exact this
  | set s x y z cells | broadcast s x y z cell n | load s ss src n | poke s x y z X Y Z r k v =>
    simp only [World.step, World.withG]
    cases hs : w.g s with
    | none => exact err
    | some g => exact ofH_mem rfl _ (callbackMut_mem h (fun id hid => hW s (by simp [gridWrites]) g id hs hid) _)
  | get s x y z target | save s ss tgt n =>
    simp only [World.step, World.withG]
    cases hs : w.g s with
    | none => exact err
    | some g => exact ofH_mem rfl _ (callbackRead_mem h (fun id hid => M.sub id (hW s (by simp [gridWrites]) g id hs hid)) _)
  | peek s x y z X Y Z r k =>
    simp only [World.step, World.withG]
    cases hs : w.g s with
    | none => exact err
    | some g => exact ofH_mem rfl _ (callbackRead_mem h (fun id hid => hK s (by simp [gridReads]) g id hs hid) _)
  | dims s =>
    simp only [World.step, World.withG]
    cases w.g s with
    | none => exact err
    | some g => exact ⟨rfl, rfl, h⟩
  | extents s =>
    simp only [World.step, World.withG]
    cases w.g s with
    | none => exact err
    | some g =>
      simp only
      split
      · exact ⟨rfl, rfl, h⟩
      · exact err
  | byteSize s =>
    simp only [World.step, World.withG]
    cases w.g s with
    | none => exact err
    | some g =>
      simp only
      cases g.bs with
      | none => exact err
      | some n => exact ⟨rfl, rfl, h⟩

/-- Buffer `id` belongs to one of the grids in `l`. -/
def BufferOf (w : World V) (l : List Nat) (id : Nat) : Prop := ∃ s ∈ l, ∃ g, w.g s = some g ∧ g.data = some id

/-- C86, why turns at calls are enough. In any state whatsoever (even one no correct program reaches):
    a call changes no buffer except those of the grids it may change and new ones; and what it does depends on no buffer except those of
    the grids it reads or changes: with other contents in any other buffers it does and returns the same. -/
theorem C86_grid_memory (w : World V) (op : Op V) (k : Heap V) (hn : k.next = w.h.next)
    (hk : ∀ id, (BufferOf w (gridReads op) id ∨ BufferOf w (gridWrites op) id ∨ w.h.next ≤ id) → k.blk id = w.h.blk id) :
    match w.step C op, World.step C ⟨k, w.g⟩ op with
    | .ok (w', out), .ok (w2, out2) =>
      out2 = out ∧ w2.g = w'.g ∧
      (∀ id, id < w.h.next → ¬ BufferOf w (gridWrites op) id → w'.h.blk id = w.h.blk id ∧ w2.h.blk id = k.blk id) ∧
      ∀ id, BufferOf w (gridReads op) id ∨ BufferOf w (gridWrites op) id ∨ w.h.next ≤ id → w2.h.blk id = w'.h.blk id
    | .error u, .error u2 => u2 = u
    | _, _ => False := by
  let M : Mem V := ⟨w.h, k, fun id => BufferOf w (gridReads op) id ∨ BufferOf w (gridWrites op) id ∨ w.h.next ≤ id,
    fun id => BufferOf w (gridWrites op) id ∨ w.h.next ≤ id, fun id h => .inr h, fun id h => .inr h⟩
  have hR : HR M w.h k := ⟨hn.symm, Nat.le_refl _, fun id hid => (hk id hid).symm, fun _ _ => rfl, fun _ _ => rfl⟩
  have key := step_mem (C := C) (M := M) op hR (fun s hs g id h1 h2 => .inl ⟨s, hs, g, h1, h2⟩) (fun s hs g id h1 h2 => .inl ⟨s, hs, g, h1, h2⟩)
  revert key
  cases w.step C op <;> cases World.step C ⟨k, w.g⟩ op <;> intro key
  · exact key.symm
  · exact key.elim
  · exact key.elim
  · obtain ⟨k1, k2, k3⟩ := key
    refine ⟨k1.symm, k2.symm, fun id hid hno => ?_, fun id hid => (k3.agree id hid).symm⟩
    have hw : ¬ M.W id := by rintro (h | h); exact hno h; omega
    exact ⟨k3.left id hw, k3.right id hw⟩

theorem step_objects {w w' : World V} {op : Op V} {out : Out V} (h : w.step C op = .ok (w', out)) {u : Nat} (hu : u ∉ gridWrites op) :
    w'.g u = w.g u := by
  have gs : ∀ {α : Type} {s : Nat} {o : α → Out V} {r : Res (GS V) α}, u ≠ s → w.ofGS s o r = .ok (w', out) → w'.g u = w.g u := by
    intro α s o r hne h
    cases r <;> simp only [World.ofGS] at h <;> cases h <;> exact if_neg hne
  have ct : ∀ {s : Nat} {r : Res (GS V) Unit}, u ≠ s → w.ofCtor s r = .ok (w', out) → w'.g u = w.g u := by
    intro s r hne h
    cases r <;> simp only [World.ofCtor] at h <;> cases h <;> first | exact if_neg hne | rfl
  have hh : ∀ {α : Type} {o : α → Out V} {r : Res (Heap V) α}, w.ofH o r = .ok (w', out) → w'.g u = w.g u := by
    intro α o r h
    cases r <;> simp only [World.ofH] at h <;> cases h <;> rfl
  cases op <;> simp only [gridWrites, List.mem_cons, List.not_mem_nil, or_false, not_or] at hu <;> simp only [World.step, World.withG] at h <;>
    (repeat' split at h) <;> first
    | exact gs hu h
    | exact ct hu h
    | exact hh h
    | (cases h <;> first | rfl | exact if_neg hu | simp [World.upd, hu.1, hu.2])

/-- C86, in any state a program reaches: a call on some grids, even one which breaks its contract, changes neither the object nor the buffer
    of any other grid `u`, and if the buffer of `u` had any other contents, e.g. those which another thread writes meanwhile, the call
    would do and return the same. -/
theorem C86_grid_apart (hL : C.L.WF) {dv : V} {ops : List (Op V)} (hleg : Spec.Legal C dv Spec.start ops) {w : World V} {outs : List (Out V)}
    (hw : World.init.run C ops = .ok (w, outs)) {u : Nat} {g : Grid} {id : Nat} (hg : w.g u = some g) (hd : g.data = some id)
    (op : Op V) (hu : u ∉ gridWrites op) {w' : World V} {out : Out V} (h : w.step C op = .ok (w', out)) :
    w'.g u = some g ∧ w'.h.blk id = w.h.blk id ∧
    (u ∉ gridReads op → ∀ b : Block V, ∃ w2, World.step C ⟨w.h.set id b, w.g⟩ op = .ok (w2, out) ∧ w2.g = w'.g ∧ w2.h.blk id = some b ∧
      ∀ i, i ≠ id → w2.h.blk i = w'.h.blk i) := by
  obtain ⟨w0, outs0, a, e0, hrun, hR, -⟩ := run_refines hL R.init ops [] (by rw [List.append_nil]; exact hleg)
  rw [hw] at e0; injection e0 with e0; injection e0 with e0 e1; subst e0 e1
  have hlt : id < w.h.next := by
    rcases Nat.lt_or_ge id w.h.next with h | h
    · exact h
    · exfalso
      have h1 := hR.fresh id h
      have h2 := hR.slots u
      rw [hg] at h2
      cases ha : a u with
      | absent => rw [ha] at h2; cases h2
      | blank => rw [ha] at h2; obtain ⟨_, ⟨⟩, -, h3⟩ := h2; rw [hd] at h3; cases h3
      | grid ag =>
        rw [ha] at h2; obtain ⟨_, ⟨⟩, h3⟩ := h2
        obtain ⟨-, _, id', _, -, h4, h5, -⟩ := h3
        rw [hd] at h4; cases h4; rw [h1] at h5; cases h5
  have hno : ∀ l : List Nat, u ∉ l → ¬ BufferOf w l id := fun l hl ⟨s, hs, g', h1, h2⟩ => hl (hR.own u s g g' id hg h1 hd h2 ▸ hs)
  have k1 := C86_grid_memory (C := C) w op w.h rfl (fun _ _ => rfl)
  rw [show (⟨w.h, w.g⟩ : World V) = w from rfl, h] at k1
  refine ⟨(step_objects h hu).trans hg, (k1.2.2.1 id hlt (hno _ hu)).1, fun hr b => ?_⟩
  have k2 := C86_grid_memory (C := C) w op (w.h.set id b) rfl (fun i hi => by
    have : i ≠ id := by
      rintro rfl
      rcases hi with hi | hi | hi
      · exact hno _ hr hi
      · exact hno _ hu hi
      · omega
    simp [Heap.set, this])
  rw [h] at k2
  cases e : World.step C ⟨w.h.set id b, w.g⟩ op with
  | error v => rw [e] at k2; exact k2.elim
  | ok p =>
    rw [e] at k2
    obtain ⟨w2, out2⟩ := p
    obtain ⟨rfl, m2, m3, m4⟩ := k2
    refine ⟨w2, rfl, m2, (m3 id hlt (hno _ hu)).2.trans (by simp [Heap.set]), fun i hi => ?_⟩
    by_cases hK : BufferOf w (gridReads op) i ∨ BufferOf w (gridWrites op) i ∨ w.h.next ≤ i
    · exact m4 i hK
    · obtain ⟨q1, q2⟩ := m3 i (by omega) (fun h => hK (.inr (.inl h)))
      rw [q1, q2]; simp [Heap.set, hi]

end

/-- Two grids: a thread writes a run of cells into the first one, whatever another thread writes into the buffer of the second meanwhile. -/
example : ∃ g id w' out, demoW.g 1 = some g ∧ g.data = some id ∧ demoW.step demoC (.broadcast 0 0 1 1 demoCell 3) = .ok (w', out) ∧
    w'.h.blk id = demoW.h.blk id ∧
    ∀ b', ∃ w2, World.step demoC ⟨demoW.h.set id b', demoW.g⟩ (.broadcast 0 0 1 1 demoCell 3) = .ok (w2, out) ∧ w2.h.blk id = some b' := by
  obtain ⟨outs, hrun⟩ := demo_runs
  obtain ⟨a, cells, hR, h0, ⟨c1, h1⟩, -⟩ := demo_abs
  obtain ⟨g, hg, -, e, id, b, -, hd, -⟩ := hR.grid h1
  obtain ⟨w', out, a', k1, -, -⟩ := step_refines demoL_WF 0 hR (.broadcast 0 0 1 1 demoCell 3) ⟨_, h0, by simp, by simp, by simp⟩
  obtain ⟨q1, q2, q3⟩ := C86_grid_apart demoL_WF demo_legal hrun hg hd (.broadcast 0 0 1 1 demoCell 3) (by simp [gridWrites]) k1
  refine ⟨g, id, w', out, hg, hd, k1, q2, fun b' => ?_⟩
  obtain ⟨w2, m1, -, m2, -⟩ := q3 (by simp [gridReads]) b'
  exact ⟨w2, m1, m2⟩

end LFA.Props
