import Verif.DevVecProof

set_option linter.unusedSectionVars false
set_option linter.unusedVariables false
namespace LFA
namespace Dev
open ND
open LFA.World (upd)
variable {V : Type} [DecidableEq V] {C : Cfg V}

/-- The vectors, as if they were on the host. -/
def view (W : VecWorld V) : LFA.VecWorld V :=
  ⟨W.D.w.h, fun s => match W.D.w.g (s + 1), W.n s with
    | some g, some n => some ⟨g, n⟩
    | _, _ => none⟩

/-- The state represents the vectors `σ`. -/
structure VDR (C : Cfg V) (W : VecWorld V) (σ : VecSpec.State V) : Prop where
  host : VR C (view W) σ
  sync : ∀ s, (W.n s).isSome = (W.D.w.g (s + 1)).isSome
  tmp : W.D.w.g 0 = none
  frame : Frame W.D

theorem VDR.init : VDR C (VecWorld.init : VecWorld V) VecSpec.start := by
  refine ⟨VR.init, fun _ => rfl, rfl, fun _ _ h => (nomatch h), ?_, ?_⟩ <;>
    exact ⟨_, CA.Rel.init, ⟨0, fun _ _ => rfl⟩, rfl, fun _ => rfl⟩

theorem VDR.vec {W : VecWorld V} {σ : VecSpec.State V} (hR : VDR C W σ) {s : Nat} {a : AVec V} (hs : σ s = some a) :
    ∃ g, W.D.w.g (s + 1) = some g ∧ W.n s = some a.n ∧ VecOK C W.D.w.h g a := by
  obtain ⟨g, h1, h2⟩ := hR.host.vec hs
  simp only [view] at h1
  split at h1
  · rename_i g' n' e1 e2
    cases h1
    exact ⟨g, e1, e2, h2⟩
  · cases h1

theorem VDR.absent {W : VecWorld V} {σ : VecSpec.State V} (hR : VDR C W σ) {s : Nat} (hs : σ s = none) :
    W.D.w.g (s + 1) = none ∧ W.n s = none := by
  have h := hR.host.absent hs
  have h2 := hR.sync s
  simp only [view] at h
  split at h
  · cases h
  · rename_i e
    cases hg : W.D.w.g (s + 1) <;> cases hn : W.n s <;> simp_all

theorem view_upd (W : VecWorld V) (h : Heap V) (s : Nat) (g : Grid) (n : Nat) (cs : CA.World (Cell V)) (rs : CA.World (MByte V)) :
    view ⟨⟨⟨h, upd W.D.w.g (s + 1) (some g)⟩, cs, rs⟩, upd W.n s (some n)⟩ = ⟨h, upd (view W).v s (some ⟨g, n⟩)⟩ := by
  unfold view
  congr 1
  funext t
  by_cases ht : t = s
  · subst ht; simp [upd]
  · simp [upd, ht]

/-- Vector `s` has got a new value. -/
theorem VDR.put {W : VecWorld V} {σ : VecSpec.State V} (hR : VDR C W σ) {s : Nat} {g : Grid} {h : Heap V} {a : AVec V} {D : World V}
    (hw : D.w = ⟨h, upd W.D.w.g (s + 1) (some g)⟩) (hF : Frame D)
    (hV : VR C ⟨h, upd (view W).v s (some ⟨g, a.n⟩)⟩ (upd σ s (some a))) : VDR C ⟨D, upd W.n s (some a.n)⟩ (upd σ s (some a)) := by
  obtain ⟨w, cs, rs⟩ := D
  simp only at hw
  subst hw
  refine ⟨by rw [view_upd]; exact hV, fun t => ?_, ?_, hF⟩
  · by_cases ht : t = s
    · subst ht; simp [upd]
    · simp [upd, ht]; exact hR.sync t
  · simp [upd]; exact hR.tmp

/-- Only the buffer of vector `s` and its size have been modified. -/
theorem VDR.modified {W : VecWorld V} {σ : VecSpec.State V} (hR : VDR C W σ) {s : Nat} {g : Grid} {h : Heap V} {a a' : AVec V} {D : World V}
    (hs : σ s = some a) (hg : W.D.w.g (s + 1) = some g) (hw : D.w = ⟨h, W.D.w.g⟩) (hF : Frame D)
    (hh : h = W.D.w.h ∨ ∃ id b', g.data = some id ∧ h = W.D.w.h.set id b') (hok : VecOK C h g a') :
    VDR C ⟨D, upd W.n s (some a'.n)⟩ (upd σ s (some a')) := by
  obtain ⟨g', k1, k2, k3⟩ := hR.vec hs
  rw [hg] at k1; cases k1
  have hv : (view W).v s = some ⟨g, a.n⟩ := by simp [view, hg, k2]
  obtain ⟨id, b, q1, _⟩ := k3.buf
  refine hR.put (g := g) (by rw [hw, ← hg, upd_id]) hF (hR.host.setBlock hv q1 ?_ hok)
  rcases hh with rfl | ⟨id', b', e1, rfl⟩
  · exact .inl rfl
  · rw [q1] at e1; cases e1; exact .inr ⟨b', rfl⟩

/-- The size has not changed. -/
theorem VDR.same {W : VecWorld V} {σ' : VecSpec.State V} {s n : Nat} {D : World V} (hn : W.n s = some n)
    (h : VDR C ⟨D, upd W.n s (some n)⟩ σ') : VDR C ⟨D, W.n⟩ σ' := by
  rwa [← hn, upd_id] at h

theorem VDR.world {W : VecWorld V} {σ : VecSpec.State V} (hR : VDR C W σ) {D : World V} (hw : D.w = W.D.w) (hF : Frame D) :
    VDR C ⟨D, W.n⟩ σ := by
  obtain ⟨w, cs, rs⟩ := D
  simp only at hw
  subst hw
  exact ⟨hR.host, hR.sync, hR.tmp, hF⟩

theorem count_ok {W : VecWorld V} {s n : Nat} (h : W.n s = some n) : Always (W.count s) fun x => n = x := by
  unfold VecWorld.count; rw [h]; exact Always.pure rfl

theorem extentX_ok {D : World V} {s x : Nat} {g : Grid} (h : D.w.g s = some g) (hx : g.ex = some x) :
    Always (VecWorld.extentX D s) fun y => x = y := by
  unfold VecWorld.extentX
  refine (obj_ok h).bind ?_
  rintro _ rfl
  rw [hx]; exact Always.pure rfl

/-! ### Specification -/

/-- Does the operation get another buffer? It does not if the traits do not support that many elements, since an exception is thrown
    then. Copies and assignments do not compile. -/
def Reallocates (C : Cfg V) (σ : VecSpec.State V) : VecOp V → Prop
  | .reserve _ m => ∃ e, selectSizes C.tr ⟨m, 1, 1⟩ = .ok e
  | .resize s m => ∃ a e, σ s = some a ∧ a.dim < m ∧ selectSizes C.tr ⟨m, 1, 1⟩ = .ok e
  | .push s _ => ∃ a e, σ s = some a ∧ a.n = a.ext ∧ selectSizes C.tr ⟨grow a.n, 1, 1⟩ = .ok e
  | .copy _ _ => True
  | .assign _ _ => True
  | _ => False

/-- Limits of kernel launches. -/
def VecLimits : VecOp V → Prop
  | .new _ n => n < 2 ^ 31
  | .newFill _ n _ => n < 2 ^ 31
  | _ => True

/-- Which calls are allowed: those allowed on the host, unless another buffer is needed. -/
def VecPre (C : Cfg V) (dv : V) (σ : VecSpec.State V) (op : VecOp V) : Prop :=
  (VecSpec.step C dv σ op).isSome = true ∧ ¬ Reallocates C σ op ∧ VecLimits op

/-- Effect of an operation on a vector in device memory. It differs from that on the host in two cases: the constructor which
    should fill the vector writes to the first element only, and `get` replaces members which are not part of the vector by left-overs
    from the staging buffer. -/
def VecPost (C : Cfg V) (dv : V) (σ : VecSpec.State V) (op : VecOp V) (σ' : VecSpec.State V) (out : ArrOut V) : Prop :=
  match op with
  | .newFill s n c =>
    (∃ e, selectSizes C.tr ⟨n, 1, 1⟩ = .error e ∧ σ' = σ ∧ out = .threw e) ∨
    (∃ e, selectSizes C.tr ⟨n, 1, 1⟩ = .ok e ∧ out = .unit ∧ σ' = upd σ s (some ⟨n, e.x, true, n,
      fun i => if i < n then some (if i = 0 then c else dfltCell C.L dv) else none⟩))
  | .get s i _ => ∃ t, VecSpec.step C dv σ (.get s i t) = some (σ', out)
  | op => VecSpec.step C dv σ op = some (σ', out)

/-- All vectors may be enlarged, since there are no copies. -/
theorem launch1 {n : Nat} (h : n < 2 ^ 31) : LaunchDims ⟨n, 1, 1⟩ := ⟨h, by simp, by simp⟩

theorem new_throws {n : Nat} {h : Heap V} {e : Exc} (hs : selectSizes C.tr ⟨n, 1, 1⟩ = .error e) :
    ∃ g, Grid.new C ⟨n, 1, 1⟩ h = .throw e (g, h) := by
  simp [Grid.new, Grid.resize, Grid.destroyAndDeallocate, Res.withGrid, Res.bind, hs]

/-- Construction. -/
theorem vstep_create (hL : C.L.WF) (h1 : OneD C.tr) (dv : V) {W : VecWorld V} {σ : VecSpec.State V} (hR : VDR C W σ) {s n : Nat}
    (hs : σ s = none) (hn : n < 2 ^ 31) :
    Always (Dev.step C W.D (.new (s + 1) ⟨n, 1, 1⟩)) fun q =>
      (∃ e, selectSizes C.tr ⟨n, 1, 1⟩ = .error e ∧ q.2 = .threw e ∧ VDR C ⟨q.1, W.n⟩ σ) ∨
      (∃ e, selectSizes C.tr ⟨n, 1, 1⟩ = .ok e ∧ q.2 = .unit ∧
        VDR C ⟨q.1, upd W.n s (some n)⟩ (upd σ s (some (VecSpec.fill n e.x (dfltCell C.L dv))))) := by
  obtain ⟨hg, hc⟩ := hR.absent hs
  cases hsel : selectSizes C.tr ⟨n, 1, 1⟩ with
  | error e =>
    obtain ⟨g, hr⟩ := new_throws (h := W.D.w.h) hsel
    refine (frame_new_throw hR.frame hg hr).mono ?_
    rintro q ⟨q1, q2, q3⟩
    exact .inl ⟨e, rfl, q1, hR.world q2 q3⟩
  | ok e =>
    obtain ⟨g, h', k1, k2, k3, k4⟩ := new_vec hL h1 dv hR.host.fresh hsel
    refine (frame_new hL hR.frame hg (launch1 hn) k1 k4.dim).mono ?_
    rintro q ⟨q1, q2, q3⟩
    refine .inr ⟨e, rfl, q1, hR.put (a := VecSpec.fill n e.x (dfltCell C.L dv)) q2 q3 ?_⟩
    exact hR.host.swapped (a := VecSpec.fill n e.x (dfltCell C.L dv)) (fun id h => by cases h)
      (fun v id e1 e2 => by rw [hR.host.absent hs] at e1; cases e1) k2 k3 k4

theorem vstep_new (hL : C.L.WF) (h1 : OneD C.tr) (dv : V) {W : VecWorld V} {σ : VecSpec.State V} (hR : VDR C W σ) (s n : Nat)
    (hp : VecPre C dv σ (.new s n)) :
    Always (VecWorld.step C W (.new s n)) fun q => ∃ σ', VecPost C dv σ (.new s n) σ' q.2 ∧ VDR C q.1 σ' := by
  obtain ⟨hp, -, hl⟩ := hp
  have hs : σ s = none := by
    cases h : σ s with
    | none => rfl
    | some a => simp [VecSpec.step, VecSpec.create, h] at hp
  unfold VecWorld.step
  simp only [(hR.absent hs).2]
  refine (vstep_create hL h1 dv hR hs hl).bind ?_
  rintro ⟨D, out⟩ (⟨e, e1, rfl, e3⟩ | ⟨e, e1, rfl, e3⟩)
  · exact Always.pure ⟨σ, by simp [VecPost, VecSpec.step, VecSpec.create, hs, e1], e3⟩
  · exact Always.pure ⟨_, by simp [VecPost, VecSpec.step, VecSpec.create, hs, e1], e3⟩

theorem vstep_newFill (hL : C.L.WF) (htr : ∀ m ∈ C.L, m.ty.triv = true) (h1 : OneD C.tr) (dv : V) {W : VecWorld V} {σ : VecSpec.State V}
    (hR : VDR C W σ) (s n : Nat) (c : Cell V) (hp : VecPre C dv σ (.newFill s n c)) :
    Always (VecWorld.step C W (.newFill s n c)) fun q => ∃ σ', VecPost C dv σ (.newFill s n c) σ' q.2 ∧ VDR C q.1 σ' := by
  obtain ⟨hp, -, hl⟩ := hp
  have hs : σ s = none := by
    cases h : σ s with
    | none => rfl
    | some a => simp [VecSpec.step, VecSpec.create, h] at hp
  unfold VecWorld.step
  simp only [(hR.absent hs).2]
  refine (vstep_create hL h1 dv hR hs hl).bind ?_
  rintro ⟨D, out⟩ (⟨e, e1, rfl, e3⟩ | ⟨e, e1, rfl, e3⟩)
  · exact Always.pure ⟨σ, .inl ⟨e, e1, rfl, rfl⟩, e3⟩
  · obtain ⟨g, k1, k2, k3⟩ := e3.vec (s := s) (upd_self _ _ _)
    refine (frame_broadcast hL htr dv e3.frame k1 k3 c (Nat.le_refl _) hl).bind ?_
    rintro ⟨D', out'⟩ ⟨rfl, ⟨id, b', j1, j2, j3⟩, j4⟩
    refine Always.pure ⟨_, .inr ⟨e, e1, rfl, rfl⟩, ?_⟩
    have := VDR.same (n := n) (by simp [upd]) (e3.modified (upd_self _ _ _) k1 j2 j4 (.inr ⟨id, b', j1, rfl⟩) j3)
    have hu : ∀ {α : Type} (f : Nat → α) (x y : α), upd (upd f s x) s y = upd f s y := fun f x y => by
      funext t; by_cases ht : t = s <;> simp [upd, ht]
    rw [hu] at this
    have hc : (fun i => if i < n then some (if i = 0 then c else dfltCell C.L dv) else none) =
        putRow (VecSpec.fill n e.x (dfltCell C.L dv)).cells 0 (min n 1) fun _ => c := by
      funext i
      simp only [VecSpec.fill, putRow]
      by_cases hi : i < n
      · by_cases h0 : i = 0
        · subst h0; rw [if_pos hi, if_pos rfl, if_pos (by omega)]
        · rw [if_pos hi, if_neg h0, if_neg (by omega), if_pos hi]
      · rw [if_neg hi, if_neg (by omega), if_neg hi]
    rw [hc]; exact this

theorem vstep_destroy (hL : C.L.WF) (dv : V) {W : VecWorld V} {σ : VecSpec.State V} (hR : VDR C W σ) (s : Nat)
    (h1 : OneD C.tr) (hp : VecPre C dv σ (.destroy s)) :
    Always (VecWorld.step C W (.destroy s)) fun q => ∃ σ', VecPost C dv σ (.destroy s) σ' q.2 ∧ VDR C q.1 σ' := by
  obtain ⟨hp, -, -⟩ := hp
  cases hs : σ s with
  | none => simp [VecSpec.step, hs] at hp
  | some a =>
    obtain ⟨g, k1, k2, k3⟩ := hR.vec hs
    have hst : VecSpec.step C dv σ (.destroy s) = some (upd σ s none, .unit) := by simp [VecSpec.step, hs]
    obtain ⟨w', j1, j2⟩ := vec_step_refines hL h1 dv hR.host (.destroy s) hst
    have hv : (view W).v s = some ⟨g, a.n⟩ := by simp [view, k1, k2]
    obtain ⟨id, h', d1, d2, -⟩ := k3.dtor hL
    have d2' : g.dtor C (view W).h = .ok () h' := d2
    simp only [LFA.VecWorld.step, LFA.VecWorld.withV, hv, SVec.dtor, d2', Except.ok.injEq, Prod.mk.injEq, and_true] at j1
    subst j1
    unfold VecWorld.step
    refine (count_ok k2).bind fun _ _ => ?_
    refine (frame_destroy hL hR.frame k1 d2).bind ?_
    rintro ⟨⟨w, cs, rs⟩, out⟩ ⟨rfl, q2, q3⟩
    simp only at q2
    subst q2
    refine Always.pure ⟨_, hst, ?_, fun t => ?_, ?_, q3⟩
    · have : view (⟨⟨⟨h', upd W.D.w.g (s + 1) none⟩, cs, rs⟩, upd W.n s none⟩ : VecWorld V) = ⟨h', upd (view W).v s none⟩ := by
        unfold view
        congr 1
        funext t
        by_cases ht : t = s
        · subst ht; simp [upd]
        · simp [upd, ht]
      rw [this]; exact j2
    · by_cases ht : t = s
      · subst ht; simp [upd]
      · simp [upd, ht]; exact hR.sync t
    · simp [upd]; exact hR.tmp

theorem vstep_set (hL : C.L.WF) (htr : ∀ m ∈ C.L, m.ty.triv = true) (dv : V) {W : VecWorld V} {σ : VecSpec.State V} (hR : VDR C W σ)
    (s i : Nat) (c : Cell V) (hp : VecPre C dv σ (.set s i c)) :
    Always (VecWorld.step C W (.set s i c)) fun q => ∃ σ', VecPost C dv σ (.set s i c) σ' q.2 ∧ VDR C q.1 σ' := by
  obtain ⟨⟨σ', out⟩, hst⟩ := Option.isSome_iff_exists.1 hp.1
  obtain ⟨a, a', hs, hf, rfl⟩ := onVec_some hst
  split at hf
  · rename_i hw
    cases hf
    obtain ⟨g, k1, k2, k3⟩ := hR.vec hs
    unfold VecWorld.step
    refine (count_ok k2).bind fun _ _ => ?_
    refine (frame_set hL htr dv hR.frame k1 k3 c hw).bind ?_
    rintro ⟨D, out⟩ ⟨rfl, ⟨id, b', j1, j2, j3⟩, j4⟩
    exact Always.pure ⟨_, hst, VDR.same k2 (hR.modified hs k1 j2 j4 (.inr ⟨id, b', j1, rfl⟩) j3)⟩
  · cases hf

theorem vstep_get (hL : C.L.WF) (htr : ∀ m ∈ C.L, m.ty.triv = true) (dv : V) {W : VecWorld V} {σ : VecSpec.State V} (hR : VDR C W σ)
    (s i : Nat) (t : Cell V) (hp : VecPre C dv σ (.get s i t)) :
    Always (VecWorld.step C W (.get s i t)) fun q => ∃ σ', VecPost C dv σ (.get s i t) σ' q.2 ∧ VDR C q.1 σ' := by
  obtain ⟨⟨σ', out⟩, hst⟩ := Option.isSome_iff_exists.1 hp.1
  obtain ⟨a, a', hs, hf, rfl⟩ := onVec_some hst
  cases hc : a.cells i with
  | none => rw [hc] at hf; cases hf
  | some c =>
    obtain ⟨g, k1, k2, k3⟩ := hR.vec hs
    unfold VecWorld.step
    refine (count_ok k2).bind fun _ _ => ?_
    refine (frame_get hL htr dv hR.frame k1 k3 hc t).bind ?_
    rintro ⟨D, out⟩ ⟨⟨t', rfl⟩, j2, j4⟩
    refine Always.pure ⟨σ, ⟨t', ?_⟩, hR.world j2 j4⟩
    simp only [VecSpec.step, VecSpec.onVec, hs, hc, Option.map_some]
    rw [← hs, upd_id]

/-- `reserve()` of more elements than the traits support: the vector stays as it is. -/
theorem reserve_throws {W : VecWorld V} {σ : VecSpec.State V} (hR : VDR C W σ) {s m n : Nat} (hn : W.n s = some n) {e : Exc}
    (hsel : selectSizes C.tr ⟨m, 1, 1⟩ = .error e) :
    Always (VecWorld.reserve C W s m) fun q => q.2 = .threw e ∧ q.1.n = W.n ∧ VDR C q.1 σ := by
  obtain ⟨g, hg⟩ := new_throws (h := W.D.w.h) hsel
  unfold VecWorld.reserve
  refine (count_ok hn).bind fun _ _ => ?_
  refine (frame_new_throw hR.frame hR.tmp hg).bind ?_
  rintro ⟨D, out⟩ ⟨rfl, q2, q3⟩
  exact Always.pure ⟨rfl, rfl, hR.world q2 q3⟩

theorem vstep_reserve (dv : V) {W : VecWorld V} {σ : VecSpec.State V} (hR : VDR C W σ) (s m : Nat)
    (hp : VecPre C dv σ (.reserve s m)) :
    Always (VecWorld.step C W (.reserve s m)) fun q => ∃ σ', VecPost C dv σ (.reserve s m) σ' q.2 ∧ VDR C q.1 σ' := by
  obtain ⟨⟨σ', out⟩, hst⟩ := Option.isSome_iff_exists.1 hp.1
  obtain ⟨a, a', hs, hf, rfl⟩ := onVec_some hst
  obtain ⟨g, k1, k2, k3⟩ := hR.vec hs
  cases hsel : selectSizes C.tr ⟨m, 1, 1⟩ with
  | ok e => exact absurd ⟨e, hsel⟩ hp.2.1
  | error e =>
    simp only [VecSpec.reserve, hsel] at hf
    cases hf
    unfold VecWorld.step
    refine (reserve_throws hR k2 hsel).mono ?_
    rintro ⟨W', out⟩ ⟨rfl, _, q3⟩
    exact ⟨_, hst, by rw [← hs, upd_id]; exact q3⟩

theorem vstep_push (hL : C.L.WF) (htr : ∀ m ∈ C.L, m.ty.triv = true) (dv : V) {W : VecWorld V} {σ : VecSpec.State V} (hR : VDR C W σ)
    (s : Nat) (c : Cell V) (hp : VecPre C dv σ (.push s c)) :
    Always (VecWorld.step C W (.push s c)) fun q => ∃ σ', VecPost C dv σ (.push s c) σ' q.2 ∧ VDR C q.1 σ' := by
  obtain ⟨⟨σ', out⟩, hst⟩ := Option.isSome_iff_exists.1 hp.1
  obtain ⟨a, a', hs, hf, rfl⟩ := onVec_some hst
  by_cases hne : a.n = a.ext
  · cases hsel : selectSizes C.tr ⟨grow a.n, 1, 1⟩ with
    | ok e => exact absurd ⟨a, e, hs, hne, hsel⟩ hp.2.1
    | error e =>
      simp only [VecSpec.push, if_pos hne, VecSpec.reserve, hsel] at hf
      split at hf
      · rename_i hk
        cases hf
        obtain ⟨g, k1, k2, k3⟩ := hR.vec hs
        unfold VecWorld.step
        refine (count_ok k2).bind ?_
        rintro _ rfl
        refine (extentX_ok k1 (k3.ex hk)).bind ?_
        rintro _ rfl
        rw [if_pos hne]
        refine (reserve_throws hR k2 hsel).bind ?_
        rintro ⟨W', out⟩ ⟨rfl, _, q3⟩
        exact Always.pure ⟨_, hst, by rw [← hs, upd_id]; exact q3⟩
      · cases hf
  simp only [VecSpec.push, if_neg hne] at hf
  split at hf
  · rename_i hk
    split at hf
    · rename_i hw
      cases hf
      obtain ⟨g, k1, k2, k3⟩ := hR.vec hs
      unfold VecWorld.step
      refine (count_ok k2).bind ?_
      rintro _ rfl
      refine (extentX_ok k1 (k3.ex hk)).bind ?_
      rintro _ rfl
      rw [if_neg hne]
      refine (Always.pure (P := fun r => r = (W, .unit)) rfl).bind ?_
      rintro _ rfl
      refine (count_ok k2).bind ?_
      rintro _ rfl
      refine (frame_set hL htr dv hR.frame k1 k3 c hw).bind ?_
      rintro ⟨D, out⟩ ⟨rfl, ⟨id, b', j1, j2, j3⟩, j4⟩
      exact Always.pure ⟨_, hst, hR.modified hs k1 j2 j4 (.inr ⟨id, b', j1, rfl⟩) (j3.withN (a.n + 1))⟩
    · cases hf
  · cases hf

theorem vstep_pop (hL : C.L.WF) (htr : ∀ m ∈ C.L, m.ty.triv = true) (dv : V) {W : VecWorld V} {σ : VecSpec.State V} (hR : VDR C W σ)
    (s : Nat) (c : Cell V) (hp : VecPre C dv σ (.pop s c)) :
    Always (VecWorld.step C W (.pop s c)) fun q => ∃ σ', VecPost C dv σ (.pop s c) σ' q.2 ∧ VDR C q.1 σ' := by
  obtain ⟨⟨σ', out⟩, hst⟩ := Option.isSome_iff_exists.1 hp.1
  obtain ⟨a, a', hs, hf, rfl⟩ := onVec_some hst
  split at hf
  · rename_i hw
    cases hf
    obtain ⟨g, k1, k2, k3⟩ := hR.vec hs
    unfold VecWorld.step
    refine (count_ok k2).bind ?_
    rintro _ rfl
    have e : (if a.n = 0 then 18446744073709551615 else a.n - 1) = a.n - 1 := if_neg (by omega)
    simp only [e]
    refine (frame_set hL htr dv hR.frame k1 k3 c hw.2).bind ?_
    rintro ⟨D, out⟩ ⟨rfl, ⟨id, b', j1, j2, j3⟩, j4⟩
    exact Always.pure ⟨_, hst, hR.modified hs k1 j2 j4 (.inr ⟨id, b', j1, rfl⟩) (j3.withN (a.n - 1))⟩
  · cases hf

theorem vstep_clear (hL : C.L.WF) (dv : V) {W : VecWorld V} {σ : VecSpec.State V} (hR : VDR C W σ)
    (s : Nat) (hp : VecPre C dv σ (.clear s)) :
    Always (VecWorld.step C W (.clear s)) fun q => ∃ σ', VecPost C dv σ (.clear s) σ' q.2 ∧ VDR C q.1 σ' := by
  obtain ⟨⟨σ', out⟩, hst⟩ := Option.isSome_iff_exists.1 hp.1
  obtain ⟨a, a', hs, hf, rfl⟩ := onVec_some hst
  cases hf
  obtain ⟨g, k1, k2, k3⟩ := hR.vec hs
  unfold VecWorld.step
  refine (count_ok k2).bind fun _ _ => ?_
  exact Always.pure ⟨_, hst, hR.modified hs k1 rfl hR.frame (.inl rfl) (k3.withN 0)⟩

theorem vstep_resize (hL : C.L.WF) (dv : V) {W : VecWorld V} {σ : VecSpec.State V} (hR : VDR C W σ)
    (s m : Nat) (hp : VecPre C dv σ (.resize s m)) :
    Always (VecWorld.step C W (.resize s m)) fun q => ∃ σ', VecPost C dv σ (.resize s m) σ' q.2 ∧ VDR C q.1 σ' := by
  obtain ⟨⟨σ', out⟩, hst⟩ := Option.isSome_iff_exists.1 hp.1
  obtain ⟨a, a', hs, hf, rfl⟩ := onVec_some hst
  by_cases hle : m > a.dim
  · cases hsel : selectSizes C.tr ⟨m, 1, 1⟩ with
    | ok e => exact absurd ⟨a, e, hs, hle, hsel⟩ hp.2.1
    | error e =>
      simp only [VecSpec.resize, if_pos hle, VecSpec.reserve, hsel] at hf
      cases hf
      obtain ⟨g, k1, k2, k3⟩ := hR.vec hs
      unfold VecWorld.step
      refine (count_ok k2).bind fun _ _ => ?_
      refine (obj_ok k1).bind ?_
      rintro _ rfl
      rw [if_pos (by rw [k3.dim]; exact hle)]
      refine (reserve_throws hR k2 hsel).bind ?_
      rintro ⟨W', out⟩ ⟨rfl, _, q3⟩
      exact Always.pure ⟨_, hst, by rw [← hs, upd_id]; exact q3⟩
  simp only [VecSpec.resize, if_neg hle] at hf
  cases hf
  obtain ⟨g, k1, k2, k3⟩ := hR.vec hs
  unfold VecWorld.step
  refine (count_ok k2).bind fun _ _ => ?_
  refine (obj_ok k1).bind ?_
  rintro _ rfl
  rw [if_neg (by rw [k3.dim]; exact hle)]
  refine (Always.pure (P := fun r => r = (W, .unit)) rfl).bind ?_
  rintro _ rfl
  exact Always.pure ⟨_, hst, hR.modified hs k1 rfl hR.frame (.inl rfl) (k3.withN m)⟩

theorem vstep_query (hL : C.L.WF) (dv : V) {W : VecWorld V} {σ : VecSpec.State V} (hR : VDR C W σ) (s : Nat) (op : VecOp V)
    (hop : op = .size s ∨ op = .empty s ∨ op = .capacity s) (hp : VecPre C dv σ op) :
    Always (VecWorld.step C W op) fun q => ∃ σ', VecPost C dv σ op σ' q.2 ∧ VDR C q.1 σ' := by
  obtain ⟨⟨σ', out⟩, hst⟩ := Option.isSome_iff_exists.1 hp.1
  have e : ∀ {a : AVec V}, σ s = some a → upd σ s (some a) = σ := fun h => by rw [← h, upd_id]
  rcases hop with rfl | rfl | rfl
  all_goals
    obtain ⟨a, a', hs, hf, rfl⟩ := onVec_some hst
    cases hf
    rw [e hs] at hst
    obtain ⟨g, k1, k2, k3⟩ := hR.vec hs
    unfold VecWorld.step
    refine (count_ok k2).bind ?_
    rintro _ rfl
  · exact Always.pure ⟨σ, hst, hR⟩
  · exact Always.pure ⟨σ, hst, hR⟩
  · refine (obj_ok k1).bind ?_
    rintro _ rfl
    refine Always.pure ⟨σ, ?_, hR⟩
    rw [k3.dim]; exact hst

theorem hostStep_ok {D : World V} {op : Op V} {w : LFA.World V} {out : Out V} (h : D.w.step C op = .ok (w, out)) :
    Always (hostStep C D op) fun q => q = (⟨w, D.cs, D.rs⟩, out) := by
  unfold hostStep
  refine (Always.lift h (P := fun q => q = (w, out)) rfl).bind ?_
  rintro _ rfl
  exact Always.pure rfl

theorem vstep_poke (hL : C.L.WF) (dv : V) {W : VecWorld V} {σ : VecSpec.State V} (hR : VDR C W σ)
    (s : Nat) (x X : Int) (r k : Nat) (v : V) (hp : VecPre C dv σ (.poke s x X r k v)) :
    Always (VecWorld.step C W (.poke s x X r k v)) fun q => ∃ σ', VecPost C dv σ (.poke s x X r k v) σ' q.2 ∧ VDR C q.1 σ' := by
  obtain ⟨⟨σ', out⟩, hst⟩ := Option.isSome_iff_exists.1 hp.1
  obtain ⟨a, a', hs, hf, rfl⟩ := onVec_some hst
  obtain ⟨g, k1, k2, k3⟩ := hR.vec hs
  split at hf
  · rename_i m c hm hc
    split at hf
    · rename_i hw
      cases hf
      obtain ⟨id, b', j1, j2, j3⟩ := k3.poke (x := x) (X := X) hL v hm hw.2 (p := (x + X).toNat) (by omega) hc
      unfold VecWorld.step
      refine (count_ok k2).bind fun _ _ => ?_
      have hd : W.D.w.step C (.poke (s + 1) x 0 0 X 0 0 r k v) = .ok (⟨W.D.w.h.set id b', W.D.w.g⟩, .unit) := by
        simp only [LFA.World.step, LFA.World.withG, k1, j2]
        rfl
      refine (hostStep_ok hd).bind ?_
      rintro _ rfl
      exact Always.pure ⟨_, hst, VDR.same k2 (hR.modified (D := ⟨⟨W.D.w.h.set id b', W.D.w.g⟩, W.D.cs, W.D.rs⟩) hs k1 rfl
          ⟨hR.frame.lim, hR.frame.cells, hR.frame.raw⟩ (.inr ⟨id, b', j1, rfl⟩) j3)⟩
    · cases hf
  · cases hf

theorem vstep_peek (hL : C.L.WF) (dv : V) {W : VecWorld V} {σ : VecSpec.State V} (hR : VDR C W σ)
    (s : Nat) (x X : Int) (r k : Nat) (hp : VecPre C dv σ (.peek s x X r k)) :
    Always (VecWorld.step C W (.peek s x X r k)) fun q => ∃ σ', VecPost C dv σ (.peek s x X r k) σ' q.2 ∧ VDR C q.1 σ' := by
  obtain ⟨⟨σ', out⟩, hst⟩ := Option.isSome_iff_exists.1 hp.1
  obtain ⟨a, a', hs, hf, rfl⟩ := onVec_some hst
  obtain ⟨g, k1, k2, k3⟩ := hR.vec hs
  split at hf
  · rename_i m c hm hc
    split at hf
    · rename_i hw
      cases hf
      have j2 := k3.peek (x := x) (X := X) hL hm hw.2 (p := (x + X).toNat) (by omega) hc
      unfold VecWorld.step
      refine (count_ok k2).bind fun _ _ => ?_
      have hd : W.D.w.step C (.peek (s + 1) x 0 0 X 0 0 r k) = .ok (W.D.w, .val (some (c r k))) := by
        simp only [LFA.World.step, LFA.World.withG, k1, j2]
        rfl
      refine (hostStep_ok hd).bind ?_
      rintro _ rfl
      exact Always.pure ⟨_, hst, by rw [← hs, upd_id]; exact hR⟩
    · cases hf
  · cases hf

/-- One operation on a vector in device memory. -/
theorem vstep_all (hL : C.L.WF) (htr : ∀ m ∈ C.L, m.ty.triv = true) (h1 : OneD C.tr) (dv : V) {W : VecWorld V} {σ : VecSpec.State V}
    (hR : VDR C W σ) (op : VecOp V) (hp : VecPre C dv σ op) :
    Always (VecWorld.step C W op) fun q => ∃ σ', VecPost C dv σ op σ' q.2 ∧ VDR C q.1 σ' := by
  cases op with
  | new s n => exact vstep_new hL h1 dv hR s n hp
  | newFill s n c => exact vstep_newFill hL htr h1 dv hR s n c hp
  | copy s t => exact absurd trivial hp.2.1
  | assign s t => exact absurd trivial hp.2.1
  | destroy s => exact vstep_destroy hL dv hR s h1 hp
  | set s i c => exact vstep_set hL htr dv hR s i c hp
  | get s i t => exact vstep_get hL htr dv hR s i t hp
  | push s c => exact vstep_push hL htr dv hR s c hp
  | pop s td => exact vstep_pop hL htr dv hR s td hp
  | clear s => exact vstep_clear hL dv hR s hp
  | resize s m => exact vstep_resize hL dv hR s m hp
  | reserve s m => exact vstep_reserve dv hR s m hp
  | size s => exact vstep_query hL dv hR s _ (.inl rfl) hp
  | capacity s => exact vstep_query hL dv hR s _ (.inr (.inr rfl)) hp
  | empty s => exact vstep_query hL dv hR s _ (.inr (.inl rfl)) hp
  | poke s x X r k v => exact vstep_poke hL dv hR s x X r k v hp
  | peek s x X r k => exact vstep_peek hL dv hR s x X r k hp

end Dev
end LFA
