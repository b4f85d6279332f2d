import Verif.GridObs

/-
  Programs can be continued: a legal step from a state which a legal program reaches leads to such a state again.
-/
set_option linter.unusedSectionVars false
namespace LFA

section
variable {V : Type} [DecidableEq V] {C : Cfg V} {dv : V}

/-- What contracts depend on: is there a grid, and which dimensions does it have? -/
def ASlot.shape : ASlot V → Option (Option Ext)
  | .absent => none
  | .blank => some none
  | .grid g => some (some g.dim)

theorem ASlot.shape_absent {a : ASlot V} : a.shape = none ↔ a = .absent := by cases a <;> simp [shape]
theorem ASlot.shape_blank {a : ASlot V} : a.shape = some none ↔ a = .blank := by cases a <;> simp [shape]
theorem ASlot.shape_grid {a : ASlot V} {d : Ext} : a.shape = some (some d) ↔ ∃ g, a = .grid g ∧ g.dim = d := by cases a <;> simp [shape]

/-- Two specification states with the same shapes. -/
def SameShape (a b : AWorld V) : Prop := ∀ s, (a s).shape = (b s).shape

theorem SameShape.absent {a b : AWorld V} (h : SameShape a b) {s : Nat} (hs : a s = .absent) : b s = .absent := by
  rw [← ASlot.shape_absent, ← h s, hs]; rfl
theorem SameShape.blank {a b : AWorld V} (h : SameShape a b) {s : Nat} (hs : a s = .blank) : b s = .blank := by
  rw [← ASlot.shape_blank, ← h s, hs]; rfl
theorem SameShape.grid {a b : AWorld V} (h : SameShape a b) {s : Nat} {g : AGrid V} (hs : a s = .grid g) :
    ∃ g', b s = .grid g' ∧ g'.dim = g.dim := by
  rw [← ASlot.shape_grid, ← h s, hs]; rfl
theorem SameShape.symm {a b : AWorld V} (h : SameShape a b) : SameShape b a := fun s => (h s).symm

theorem SameShape.upd {a b : AWorld V} (h : SameShape a b) (s : Nat) {x y : ASlot V} (hxy : x.shape = y.shape) :
    SameShape (World.upd a s x) (World.upd b s y) := by
  intro t
  by_cases ht : t = s
  · subst ht; rw [upd_self, upd_self, hxy]
  · rw [upd_ne _ _ ht, upd_ne _ _ ht, h t]

theorem SameShape.upd_left {a b : AWorld V} (h : SameShape a b) (s : Nat) {x : ASlot V} (hx : x.shape = (a s).shape) :
    SameShape (World.upd a s x) b := by
  intro t
  by_cases ht : t = s
  · subst ht; rw [upd_self, hx, h t]
  · rw [upd_ne _ _ ht, h t]

/-- The contracts of all operations but `extents` depend on the shapes only. -/
theorem pre_shape {a b : AWorld V} (h : SameShape a b) {op : Op V} (hop : ∀ s, op ≠ .extents s) (hp : Spec.Pre C a op) : Spec.Pre C b op := by
  cases op with
  | new s d => exact h.absent hp
  | copy s t =>
    obtain ⟨g', h1, -⟩ := h.grid hp.2.choose_spec
    exact ⟨h.absent hp.1, g', h1⟩
  | assign s t =>
    obtain ⟨g', h1, -⟩ := h.grid hp.2.choose_spec
    exact ⟨fun hb => hp.1 (h.symm.absent hb), g', h1⟩
  | swap s t =>
    obtain ⟨g, g', h1, h2, h3⟩ := hp
    obtain ⟨k, k1, k2⟩ := h.grid h1
    obtain ⟨k', k1', k2'⟩ := h.grid h2
    exact ⟨k, k', k1, k1', by rw [k2, k2']; exact h3⟩
  | resize s d =>
    simp only [Spec.Pre] at hp ⊢
    cases has : a s with
    | absent => rw [has] at hp; exact hp.elim
    | blank => rw [has] at hp; rw [h.blank has]; exact hp
    | grid g =>
      rw [has] at hp
      obtain ⟨k, k1, -⟩ := h.grid has
      rw [k1]; exact hp
  | destroy s => exact fun hb => hp (h.symm.absent hb)
  | set s x y z cells =>
    obtain ⟨g, h1, h2⟩ := hp
    obtain ⟨k, k1, k2⟩ := h.grid h1
    exact ⟨k, k1, by rw [k2]; exact h2⟩
  | broadcast s x y z c n =>
    obtain ⟨g, h1, h2⟩ := hp
    obtain ⟨k, k1, k2⟩ := h.grid h1
    exact ⟨k, k1, by rw [k2]; exact h2⟩
  | get s x y z t =>
    obtain ⟨g, h1, h2⟩ := hp
    obtain ⟨k, k1, k2⟩ := h.grid h1
    exact ⟨k, k1, by rw [k2]; exact h2⟩
  | load s ss src n =>
    obtain ⟨g, h1, h2⟩ := hp
    obtain ⟨k, k1, k2⟩ := h.grid h1
    exact ⟨k, k1, by rw [k2]; exact h2⟩
  | save s ss tgt n =>
    obtain ⟨g, h1, h2⟩ := hp
    obtain ⟨k, k1, k2⟩ := h.grid h1
    exact ⟨k, k1, by rw [k2]; exact h2⟩
  | poke s x y z X Y Z r k v =>
    obtain ⟨g, m, h1, h2⟩ := hp
    obtain ⟨k, k1, k2⟩ := h.grid h1
    exact ⟨k, m, k1, by rw [k2]; exact h2⟩
  | peek s x y z X Y Z r k =>
    obtain ⟨g, m, h1, h2⟩ := hp
    obtain ⟨k, k1, k2⟩ := h.grid h1
    exact ⟨k, m, k1, by rw [k2]; exact h2⟩
  | dims s => exact fun hb => hp (h.symm.absent hb)
  | extents s => exact absurd rfl (hop s)
  | byteSize s =>
    obtain ⟨g, h1⟩ := hp
    obtain ⟨k, k1, k2⟩ := h.grid h1
    exact ⟨k, k1⟩

/-- Operations determine the shapes. -/
theorem post_shape {a b a' b' : AWorld V} (h : SameShape a b) {op : Op V} {o o' : Out V} (ha : Spec.Post C dv a op a' o)
    (hb : Spec.Post C dv b op b' o') : SameShape a' b' := by
  cases ha with
  | newBlank s => 
    cases hb with
    | newBlank => exact h.upd _ rfl
    | new _ _ _ hd => exact absurd rfl hd
    | newFail _ _ _ hd => exact absurd rfl hd
  | new s d e hd he =>
    cases hb with
    | newBlank => exact absurd rfl hd
    | new _ _ _ hd => exact h.upd _ rfl
    | newFail _ _ _ hd he' => rw [he] at he'; cases he'
  | newFail s d x hd he =>
    cases hb with
    | newBlank => exact absurd rfl hd
    | new _ _ _ hd he' => rw [he] at he'; cases he'
    | newFail _ _ _ hd he' => exact h
  | copy s t g hg =>
    cases hb with
    | copy _ _ g' hg' =>
      obtain ⟨k, k1, k2⟩ := h.grid hg
      rw [hg'] at k1; cases k1
      exact h.upd _ (by simp [ASlot.shape, k2])
  | assign s t g ext hg hx =>
    obtain ⟨k, k1, k2⟩ := h.grid hg
    cases hb with
    | assign _ _ g' ext' hg' hx' =>
      rw [hg'] at k1; cases k1
      exact h.upd _ (by simp [ASlot.shape, k2])
    | assignBlank _ _ g' hg' hs hg0 =>
      rw [hg'] at k1; cases k1
      rcases hx with ⟨g1, h1, -⟩ | ⟨-, h2, -⟩
      · have := h.symm.blank hs; rw [h1] at this; cases this
      · exact absurd (k2 ▸ hg0) (h2 (h.symm.blank hs))
  | assignBlank s t g hg hs hg0 =>
    obtain ⟨k, k1, k2⟩ := h.grid hg
    cases hb with
    | assign _ _ g' ext' hg' hx' =>
      rw [hg'] at k1; cases k1
      rcases hx' with ⟨g1, h1, -⟩ | ⟨-, h2, -⟩
      · have := h.blank hs; rw [h1] at this; cases this
      · exact absurd (k2.trans hg0) (h2 (h.blank hs))
    | assignBlank => exact h
  | swap s t g g' hg hg' =>
    obtain ⟨k, k1, k2⟩ := h.grid hg
    obtain ⟨k', k1', k2'⟩ := h.grid hg'
    cases hb with
    | swap _ _ _ _ j j' =>
      rw [j] at k1; cases k1
      rw [j'] at k1'; cases k1'
      exact (h.upd _ (by simp [ASlot.shape, k2'])).upd _ (by simp [ASlot.shape, k2])
  | resizeBlank s hs =>
    have hs' := h.blank hs
    generalize hd : (⟨0, 0, 0⟩ : Ext) = d at hb
    cases hb with
    | resizeBlank => exact h
    | resizeSame _ g hg => rw [hs'] at hg; cases hg
    | resize _ _ _ _ hbl _ _ => exact absurd hd.symm (hbl hs')
  | resizeSame s g hg =>
    obtain ⟨k, k1, k2⟩ := h.grid hg
    generalize hd : g.dim = d at hb
    cases hb with
    | resizeBlank _ hs => rw [hs] at k1; cases k1
    | resizeSame => exact h
    | resize _ _ _ _ _ hgr _ => exact absurd (hd.symm.trans k2.symm) (hgr _ k1)
  | resize s d e hs hbl hgr he =>
    cases hb with
    | resizeBlank _ hs => exact absurd rfl (hbl (h.symm.blank hs))
    | resizeSame _ g hg =>
      obtain ⟨k, k1, k2⟩ := h.symm.grid hg
      exact absurd k2.symm (hgr _ k1)
    | resize => exact h.upd _ rfl
  | destroy s => cases hb; exact h.upd _ rfl
  | set s x y z cells new g hg hn =>
    cases hb with
    | set _ _ _ _ _ _ g' hg' => 
      obtain ⟨k, k1, k2⟩ := h.grid hg
      rw [hg'] at k1; cases k1
      exact h.upd _ (by simp [ASlot.shape, k2])
  | broadcast s x y z c n g hg =>
    cases hb with
    | broadcast _ _ _ _ _ _ g' hg' => 
      obtain ⟨k, k1, k2⟩ := h.grid hg
      rw [hg'] at k1; cases k1
      exact h.upd _ (by simp [ASlot.shape, k2])
  | get => cases hb; exact h
  | load s ss src n g rows hg hl hp =>
    cases hb with
    | load _ _ _ _ g' _ hg' => 
      obtain ⟨k, k1, k2⟩ := h.grid hg
      rw [hg'] at k1; cases k1
      exact h.upd _ (by simp [ASlot.shape, k2])
  | save => cases hb; exact h
  | poke s x y z X Y Z r k v g px py pz hg =>
    cases hb with
    | poke _ _ _ _ _ _ _ _ _ _ g' _ _ _ hg' => 
      obtain ⟨k, k1, k2⟩ := h.grid hg
      rw [hg'] at k1; cases k1
      exact h.upd _ (by simp [ASlot.shape, k2])
  | peek => cases hb; exact h
  | dims => cases hb <;> exact h
  | dimsBlank => cases hb <;> exact h
  | extents => cases hb; exact h
  | byteSize => cases hb; exact h

theorem run_shape {ops : List (Op V)} {a b a' b' : AWorld V} {os os' : List (Out V)} (h : SameShape a b)
    (ha : Spec.Run C dv a ops a' os) (hb : Spec.Run C dv b ops b' os') : SameShape a' b' := by
  induction ops generalizing a b os os' with
  | nil => cases ha; cases hb; exact h
  | cons op ops ih =>
    cases ha with
    | cons p1 r1 =>
      cases hb with
      | cons p2 r2 => exact ih (post_shape h p1 p2) r1 r2

theorem legal_append {ops ops' : List (Op V)} {a : AWorld V} :
    Spec.Legal C dv a (ops ++ ops') ↔ Spec.Legal C dv a ops ∧ ∀ a' os, Spec.Run C dv a ops a' os → Spec.Legal C dv a' ops' := by
  induction ops generalizing a with
  | nil =>
    simp only [List.nil_append, Spec.Legal, true_and]
    exact ⟨fun h a' os hr => by cases hr; exact h, fun h => h a [] (.nil a)⟩
  | cons op ops ih =>
    simp only [List.cons_append, Spec.Legal]
    constructor
    · rintro ⟨h1, h2⟩
      refine ⟨⟨h1, fun a' o hp => (ih.1 (h2 a' o hp)).1⟩, fun a' os hr => ?_⟩
      cases hr with
      | cons p r => exact (ih.1 (h2 _ _ p)).2 _ _ r
    · rintro ⟨⟨h1, h2⟩, h3⟩
      exact ⟨h1, fun a' o hp => ih.2 ⟨h2 a' o hp, fun a'' os hr => h3 _ _ (.cons hp hr)⟩⟩

theorem R.shape {W : World V} {a b : AWorld V} (ha : R C W a) (hb : R C W b) : SameShape a b := by
  intro s
  have h1 := ha.slots s
  have h2 := hb.slots s
  cases has : a s with
  | absent =>
    rw [has] at h1
    cases hbs : b s with
    | absent => rfl
    | blank => rw [hbs] at h2; simp [SlotOK] at h1 h2; obtain ⟨g, h3, -⟩ := h2; rw [h1] at h3; cases h3
    | grid g => rw [hbs] at h2; simp [SlotOK] at h1 h2; obtain ⟨g, h3, -⟩ := h2; rw [h1] at h3; cases h3
  | blank =>
    rw [has] at h1
    obtain ⟨g, k1, k2, k3⟩ := h1
    cases hbs : b s with
    | absent => rw [hbs] at h2; simp [SlotOK] at h2; rw [h2] at k1; cases k1
    | blank => rfl
    | grid g' =>
      rw [hbs] at h2
      obtain ⟨g1, j1, j2, e, id, b, -, j3, -⟩ := h2
      rw [k1] at j1; cases j1; rw [k3] at j3; cases j3
  | grid ag =>
    rw [has] at h1
    obtain ⟨g, k1, k2, e, id, b0, -, k3, -⟩ := h1
    cases hbs : b s with
    | absent => rw [hbs] at h2; simp [SlotOK] at h2; rw [h2] at k1; cases k1
    | blank =>
      rw [hbs] at h2
      obtain ⟨g1, j1, j2, j3⟩ := h2
      rw [k1] at j1; cases j1; rw [k3] at j3; cases j3
    | grid g' =>
      rw [hbs] at h2
      obtain ⟨g1, j1, j2, -⟩ := h2
      rw [k1] at j1; cases j1
      simp only [ASlot.shape]; rw [← k2, ← j2]

theorem run_snoc (W W' W'' : World V) (ops : List (Op V)) (op : Op V) (os : List (Out V)) (o : Out V) (h : W.run C ops = .ok (W', os))
    (h' : W'.step C op = .ok (W'', o)) : W.run C (ops ++ [op]) = .ok (W'', os ++ [o]) := by
  induction ops generalizing W os with
  | nil =>
    simp only [World.run, Except.ok.injEq, Prod.mk.injEq] at h; obtain ⟨rfl, rfl⟩ := h
    simp only [List.nil_append, World.run, h']
  | cons op1 ops ih =>
    simp only [World.run, List.cons_append] at h ⊢
    cases h1 : W.step C op1 with
    | error u => rw [h1] at h; cases h
    | ok r =>
      rw [h1] at h
      simp only at h ⊢
      cases h2 : r.1.run C ops with
      | error u => rw [h2] at h; cases h
      | ok r2 =>
        rw [h2] at h
        simp only [Except.ok.injEq, Prod.mk.injEq] at h
        obtain ⟨h3, rfl⟩ := h
        obtain ⟨r21, r22⟩ := r2
        simp only at h3; subst h3
        rw [ih _ _ h2]
        rfl

/-- A program may be continued by each operation (but `extents`) the contract of which is respected by the arrays it has computed. -/
theorem Valid.next (hL : C.L.WF) {W W' : World V} (hV : Valid C dv W) {a : AWorld V} (hR : R C W a) {op : Op V} {out : Out V}
    (hop : ∀ s, op ≠ .extents s) (hp : Spec.Pre C a op) (hs : W.step C op = .ok (W', out)) : Valid C dv W' := by
  obtain ⟨ops, outs, hleg, hrun⟩ := hV
  obtain ⟨W1, outs1, a1, h1, h2, h3, -⟩ := run_refines hL R.init ops [] (by rw [List.append_nil]; exact hleg)
  rw [hrun] at h1; cases h1
  refine ⟨ops ++ [op], outs ++ [out], legal_append.2 ⟨hleg, fun a' os hr => ?_⟩, run_snoc _ _ _ _ _ _ _ hrun hs⟩
  have := run_shape (fun _ => rfl) h2 hr
  exact ⟨pre_shape (fun s => (hR.shape h3 s).trans (this s)) hop hp, fun _ _ _ => trivial⟩

end
end LFA
