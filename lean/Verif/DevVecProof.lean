import Verif.DevVec
import Verif.DevGridProof
import Verif.SoaVectorRefine

/-
  Vectors in device memory refine those of the specification, as long as they are not reallocated.
-/
set_option linter.unusedSectionVars false
set_option linter.unusedVariables false
namespace LFA
namespace Dev
open ND
open LFA.World (upd)
variable {V : Type} [DecidableEq V] {C : Cfg V}

/-- Which grid variables hold an object? -/
def alive (D : World V) (s : Nat) : Bool := (D.w.g s).isSome

theorem alive_upd (h : Heap V) (g : Nat → Option Grid) (s : Nat) (x : Option Grid) (cs : CA.World (Cell V)) (rs : CA.World (MByte V)) :
    alive (⟨⟨h, upd g s x⟩, cs, rs⟩ : World V) = fun t => if t = s then x.isSome else (g t).isSome := by
  funext t
  by_cases ht : t = s
  · subst ht; simp [alive, upd]
  · simp [alive, upd, ht]

/-- The state apart from the memory of the grids. -/
structure Frame (D : World V) : Prop where
  lim : ∀ s g, D.w.g s = some g → LaunchDims g.dim
  cells : Staging (alive D) D.cs
  raw : Staging (alive D) D.rs

theorem obj_ok {D : World V} {s : Nat} {g : Grid} (hg : D.w.g s = some g) : Always (obj D s) fun x => g = x := by
  unfold Dev.obj; rw [hg]; exact Always.pure rfl

theorem frame_new (hL : C.L.WF) {D : World V} (hF : Frame D) {s : Nat} (hn : D.w.g s = none) {d : Ext} (hlim : LaunchDims d)
    {g' : Grid} {h' : Heap V} (hr : Grid.new C d D.w.h = .ok () (g', h')) (hd : g'.dim = d) :
    Always (Dev.step C D (.new s d)) fun q => q.2 = .unit ∧ q.1.w = ⟨h', upd D.w.g s (some g')⟩ ∧ Frame q.1 := by
  have hlv : alive D s = false := by simp [alive, hn]
  unfold Dev.step
  simp only [hn]
  refine (hF.cells.new hlv).bind fun q hq => ?_
  refine (hF.raw.new hlv).bind fun p hp => ?_
  refine (resize_ok hL (by intro _ h; cases h) hlim hr).bind ?_
  rintro _ rfl
  refine Always.pure ⟨rfl, rfl, ?_, by rw [alive_upd]; exact hq, by rw [alive_upd]; exact hp⟩
  intro t g ht
  by_cases he : t = s
  · subst he; simp only [upd_self] at ht; cases ht; rw [hd]; exact hlim
  · simp only [upd_ne _ _ he] at ht; exact hF.lim t g ht

theorem frame_new_throw {D : World V} (hF : Frame D) {s : Nat} (hn : D.w.g s = none) {d : Ext}
    {g' : Grid} {h' : Heap V} {x : Exc} (hr : Grid.new C d D.w.h = .throw x (g', h')) :
    Always (Dev.step C D (.new s d)) fun q => q.2 = .threw x ∧ q.1.w = ⟨h', D.w.g⟩ ∧ Frame q.1 := by
  have hlv : alive D s = false := by simp [alive, hn]
  unfold Dev.step
  simp only [hn]
  refine (hF.cells.new hlv).bind fun q hq => ?_
  refine (hF.raw.new hlv).bind fun p hp => ?_
  have hlv' : (fun t => if t = s then true else alive D t) s = true := by simp
  refine (resize_throw rfl hr).bind ?_
  rintro _ rfl
  refine (hp.del hlv').bind fun p' hp' => ?_
  refine (hq.del hlv').bind fun q' hq' => ?_
  have e : (fun t => if t = s then false else if t = s then true else alive D t) = alive D := by
    funext t
    by_cases ht : t = s
    · subst ht; simp [hlv]
    · simp [ht]
  simp only [e] at hp' hq'
  exact Always.pure ⟨rfl, rfl, hF.lim, hq', hp'⟩

theorem frame_destroy (hL : C.L.WF) {D : World V} (hF : Frame D) {s : Nat} {g : Grid} (hg : D.w.g s = some g) {h' : Heap V}
    (hd : g.dtor C D.w.h = .ok () h') :
    Always (Dev.step C D (.destroy s)) fun q => q.2 = .unit ∧ q.1.w = ⟨h', upd D.w.g s none⟩ ∧ Frame q.1 := by
  have hlv : alive D s = true := by simp [alive, hg]
  unfold Dev.step
  refine (obj_ok hg).bind ?_
  rintro _ rfl
  refine (destroy_ok hL (fun _ _ => hF.lim s g hg) (dtor_ok hd)).bind ?_
  rintro _ rfl
  refine (hF.raw.del hlv).bind fun p hp => ?_
  refine (hF.cells.del hlv).bind fun q hq => ?_
  refine Always.pure ⟨rfl, rfl, ?_, by rw [alive_upd]; exact hq, by rw [alive_upd]; exact hp⟩
  intro t g' ht
  by_cases he : t = s
  · subst he; simp only [upd_self] at ht; cases ht
  · simp only [upd_ne _ _ he] at ht; exact hF.lim t g' ht

theorem frame_resize (hL : C.L.WF) {D : World V} (hF : Frame D) {s : Nat} {g : Grid} (hg : D.w.g s = some g) {d : Ext}
    (hlim : LaunchDims d) {g' : Grid} {h' : Heap V} (hr : g.resize C d D.w.h = .ok () (g', h')) (hd : g'.dim = d) :
    Always (Dev.step C D (.resize s d)) fun q => q.2 = .unit ∧ q.1.w = ⟨h', upd D.w.g s (some g')⟩ ∧ Frame q.1 := by
  unfold Dev.step
  refine (obj_ok hg).bind ?_
  rintro _ rfl
  refine (resize_ok hL (fun _ _ => hF.lim s g hg) hlim hr).bind ?_
  rintro _ rfl
  have e : alive (⟨⟨h', upd D.w.g s (some g')⟩, D.cs, D.rs⟩ : World V) = alive D := by
    rw [alive_upd]; funext t
    by_cases he : t = s
    · subst he; simp [alive, hg]
    · simp [alive, he]
  refine Always.pure ⟨rfl, rfl, ?_, by show Staging (alive _) _; rw [e]; exact hF.cells, by show Staging (alive _) _; rw [e]; exact hF.raw⟩
  intro t g0 ht
  by_cases he : t = s
  · subst he; simp only [upd_self] at ht; cases ht; rw [hd]; exact hlim
  · simp only [upd_ne _ _ he] at ht; exact hF.lim t g0 ht

theorem frame_set (hL : C.L.WF) (htr : ∀ m ∈ C.L, m.ty.triv = true) (dv : V) {D : World V} (hF : Frame D) {s : Nat} {g : Grid}
    (hg : D.w.g s = some g) {a : AVec V} (hok : VecOK C D.w.h g a) {i : Nat} (c : Cell V) (hw : VecSpec.Writable C.L a i) :
    Always (Dev.step C D (.set s i 0 0 [c])) fun q => q.2 = .unit ∧ (∃ id b', g.data = some id ∧ q.1.w = ⟨D.w.h.set id b', D.w.g⟩ ∧
      VecOK C (D.w.h.set id b') g { a with cells := VecSpec.put a.cells i c }) ∧ Frame q.1 := by
  have hlv : alive D s = true := by simp [alive, hg]
  unfold Dev.step
  refine (obj_ok hg).bind ?_
  rintro _ rfl
  refine (trivial_ok htr).bind fun _ _ => ?_
  refine hF.cells.upload hlv [c] rfl ?_
  intro q m hq hlen hval
  refine (structs_ok dv m.2).bind ?_
  rintro t ⟨t1, t2⟩
  have h0 : t[0]? = some c := t2 0 _ (hval 0 _ rfl)
  obtain ⟨id, b', h1, h2, h3⟩ := hok.setRow hL (stride := 1) (cells := t) (x := i) (n := 1) (new := fun _ => c)
    (fun j hj => by
      have : j = 0 := by omega
      subst this; exact h0)
    (fun j hj => by
      have : j = 0 := by omega
      subst this; exact hw) hw.1
  rw [putRow_one] at h3
  refine (callbackMut_ok h2 (f := fun e => setCuda C.L e 1 t i 0 0 1) fun e b b' he hb =>
    Always.of (C39_set_partial C.L hL e t i 0 0 1 ?_ (by omega) b b' hb) rfl).bind ?_
  · rw [hok.dim, hok.sel] at he; cases he
    rw [lin1, prod1]; exact hw.1
  · rintro _ rfl
    exact Always.pure ⟨rfl, ⟨id, b', h1, rfl, h3⟩, hF.lim, hq.staging, hF.raw⟩

theorem frame_broadcast (hL : C.L.WF) (htr : ∀ m ∈ C.L, m.ty.triv = true) (dv : V) {D : World V} (hF : Frame D) {s : Nat} {g : Grid}
    (hg : D.w.g s = some g) {a : AVec V} (hok : VecOK C D.w.h g a) (c : Cell V) {n : Nat} (hn : n ≤ a.dim) (hlim : n < 2 ^ 31) :
    Always (Dev.step C D (.broadcast s 0 0 0 c n)) fun q => q.2 = .unit ∧ (∃ id b', g.data = some id ∧
      q.1.w = ⟨D.w.h.set id b', D.w.g⟩ ∧
      VecOK C (D.w.h.set id b') g { a with cells := putRow a.cells 0 (min n 1) fun _ => c }) ∧ Frame q.1 := by
  have hlv : alive D s = true := by simp [alive, hg]
  have hle := hok.le
  unfold Dev.step
  refine (obj_ok hg).bind ?_
  rintro _ rfl
  refine (trivial_ok htr).bind fun _ _ => ?_
  refine hF.cells.upload hlv [c] rfl ?_
  intro q m hq hlen hval
  refine (structs_ok dv m.2).bind ?_
  rintro t ⟨t1, t2⟩
  have h0 : t[0]? = some c := t2 0 _ (hval 0 _ rfl)
  obtain ⟨id, b', h1, h2, h3⟩ := hok.setRow hL (stride := 0) (cells := t) (x := 0) (n := min n 1) (new := fun _ => c)
    (fun j _ => by rw [Nat.mul_zero]; exact h0)
    (fun j hj => ⟨by omega, .inr (hok.live _ (by omega))⟩) (by omega)
  refine (callbackMut_ok h2 (f := fun e => setCuda C.L e 0 t 0 0 0 n) fun e b b' he hb => ?_).bind ?_
  · rw [hok.dim, hok.sel] at he; cases he
    by_cases hz : n = 0
    · subst hz
      have : b' = b := by
        have : setFunctor C.L ⟨a.ext, 1, 1⟩ 0 t 0 0 0 0 b = .ok b := rfl
        rw [Nat.zero_min, this] at hb; cases hb; rfl
      subst this
      exact Always.of (setCuda_none _ _ _ _ _ _ _ _) rfl
    · have e1 : min n 1 = 1 := by omega
      rw [e1] at hb
      refine Always.of ⟨launch_exists _ _ _ _ _, fun r hr => broadcastCuda_first hL (by omega) hlim ?_ hb hr⟩ rfl
      rw [lin1, prod1]; omega
  · rintro _ rfl
    exact Always.pure ⟨rfl, ⟨id, b', h1, rfl, h3⟩, hF.lim, hq.staging, hF.raw⟩

theorem frame_get (hL : C.L.WF) (htr : ∀ m ∈ C.L, m.ty.triv = true) (dv : V) {D : World V} (hF : Frame D) {s : Nat} {g : Grid}
    (hg : D.w.g s = some g) {a : AVec V} (hok : VecOK C D.w.h g a) {i : Nat} {c : Cell V} (hc : a.cells i = some c) (t0 : Cell V) :
    Always (Dev.step C D (.get s i 0 0 [t0])) fun q => (∃ t', q.2 = .cells [overlay C.L c t']) ∧ q.1.w = D.w ∧ Frame q.1 := by
  have hlv : alive D s = true := by simp [alive, hg]
  have hi := hok.bnd i (by simp [hc])
  obtain ⟨l, hst⟩ := hF.cells.stage hlv
  unfold Dev.step
  refine (obj_ok hg).bind ?_
  rintro _ rfl
  refine (trivial_ok htr).bind fun _ _ => ?_
  refine (hst.resize 1).bind ?_
  rintro q ⟨ac, cap, r1, r2, r3, r4, r5⟩
  have r6 : (l.take 1 ++ List.replicate (1 - l.length) none).length = 1 := by simp; omega
  refine (Always.mem r1 r5).bind ?_
  rintro m ⟨A, m1, m2, m3, m4, m5, m6, m7, m8⟩
  refine (structs_ok dv m.2).bind ?_
  rintro t ⟨t1, t2⟩
  have hn : 1 ≤ t.length := by rw [t1, m4, ← r6]; exact m7
  obtain ⟨t', ht'⟩ : ∃ t', t[0]? = some t' := ⟨_, List.getElem?_eq_getElem hn⟩
  have key : ∃ out, out.length = t.length ∧ out[0]? = some (overlay C.L c t') ∧
      g.callbackRead C (fun e b => getFunctor C.L e b i 0 0 1 t) D.w.h = .ok out D.w.h := by
    obtain ⟨id, b, q1, q2, q2', q3⟩ := hok.buf
    obtain ⟨out, k1, k2, k3, _⟩ := getFunctor_ok (e := ⟨a.ext, 1, 1⟩) (x := i) (y := 0) (z := 0) (count := 1) hL
      (by rw [lin1, prod1]; omega) (by rw [prod1]; exact q3) (val := fun _ => c)
      (fun r m k j hm hk hj => by
        have : j = 0 := by omega
        subst this
        rw [lin1]; exact vcont_some hc r k) t hn
    refine ⟨out, k2, by rw [k3 0 (by omega), ht']; rfl, ?_⟩
    simp only [Grid.callbackRead, hok.dim, hok.sel, q1, q2, k1]
  obtain ⟨out, k2, k3, k1⟩ := key
  refine (callbackRead_ok k1 (f := fun e b => getCuda C.L e b i 0 0 1 t) fun e b b' he hb =>
    Always.of (C39_get_partial C.L e b i 0 0 1 (by omega) t b' hb) rfl).bind ?_
  rintro _ rfl
  dsimp only
  rw [m2]
  refine Staging.download r1 r2 r3 r4 hlv m1 (by rw [k2, t1, m4, m5]) (by rw [m6, m5]; exact m7) ?_
  intro q' hq' he
  rw [he, mapM_some]
  have hsz : A.size = 1 := by rw [m6, r6]
  refine Always.pure ⟨⟨t', ?_⟩, rfl, hF.lim, hq', hF.raw⟩
  rw [hsz]
  cases out with
  | nil => simp at k3
  | cons o os => simp at k3; simp [k3]

end Dev
end LFA
