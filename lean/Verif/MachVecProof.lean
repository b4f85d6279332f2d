import Verif.MachVec
import Verif.MachGridProof
import Verif.SoaVectorRefine

/-
  The functions of `Verif.MachVec` compute what those of `Verif.SoaVector` compute, if the extents are small.
-/
set_option linter.unusedSectionVars false
namespace LFA.Mach
open World (upd)

theorem roundDouble_upper (p : Nat) : roundDouble p ≤ 2 * p := by
  unfold roundDouble
  dsimp only
  generalize hs : p.log2 + 1 - 53 = s
  have hp : p = p / 2 ^ s * 2 ^ s + p % 2 ^ s := (Nat.div_add_mod' p (2 ^ s)).symm
  have hpos : 0 < 2 ^ s := Nat.pow_pos (by omega)
  split
  · rename_i h
    rw [Nat.add_mul, Nat.one_mul]
    rcases h with h | h <;> omega
  · omega

theorem grow_lt {n : Nat} (hn : n ≤ 2 ^ 31) : (grow n : Int) < 2 ^ 64 := by
  have : grow n < 2 ^ 64 := by
    unfold grow
    have h1 := roundDouble_upper n
    have h2 := roundDouble_upper (roundDouble n * 5404319552844595)
    omega
  exact_mod_cast this

theorem size_nat {a : Nat} (h : (a : Int) < 2 ^ 64) : size (a : Int) = some (a : Int) := size_ok (by omega) h

section
variable {V : Type} [DecidableEq V]

theorem chkSize_nat {o : Option Int} {n : Nat} (h : o = some (n : Int)) (f : Nat → Res (VS V) Unit) : chkSize o f = f n := by
  subst h; rfl

variable {C : Cfg V} (hL : C.L.WF) (hagg : aggSize C.L ≤ 2 ^ 31) (hsm : ∀ d e, selectSizes C.tr d = .ok e → Small e)

omit hL hagg hsm in
theorem sz_vec {h : Heap V} {g : Grid} {a : AVec V} (hg : VecOK C h g a) : Sz C h g := by
  obtain ⟨id, b, h1, h2, h3, -⟩ := hg.buf
  exact ⟨⟨a.ext, 1, 1⟩, id, b, by rw [hg.dim]; exact hg.sel, h1, h2, by rw [prod1]; exact h3⟩

omit hL hagg hsm in
theorem sel_vec {h : Heap V} {g : Grid} {a : AVec V} (hg : VecOK C h g a) {e : Ext} (he : selectSizes C.tr g.dim = .ok e) :
    e = ⟨a.ext, 1, 1⟩ := by
  rw [hg.dim, hg.sel] at he; cases he; rfl

omit hL hagg in
include hsm in
theorem ext_le {h : Heap V} {g : Grid} {a : AVec V} (hg : VecOK C h g a) : a.ext ≤ 2 ^ 31 := by
  have := (hsm _ _ hg.sel).le
  simpa using this

omit hL hagg hsm in
/-- A callback changes the buffer of its grid only. -/
theorem callbackMut_cases {h : Heap V} {g : Grid} (hg : Sz C h g) {id : Nat} (hid : g.data = some id)
    (f : Ext → Block V → Except UB (Block V)) :
    (∃ b, g.callbackMut C f h = .ok () (h.set id b)) ∨ ∃ u, g.callbackMut C f h = .ub u := by
  obtain ⟨e, id', b, h2, h3, h4, h5⟩ := hg
  rw [h3] at hid; cases hid
  simp only [Grid.callbackMut, h2, onBuffer, h3, h4]
  cases f e b with
  | ok b' => exact .inl ⟨b', rfl⟩
  | error u => exact .inr ⟨u, rfl⟩

include hL hagg hsm

theorem new_eq (d : Ext) (h : Heap V) : new C d h = Grid.new C d h := resize_eq hL hagg hsm (.inl rfl) d

theorem vecSet_eq {h : Heap V} {g : Grid} {a : AVec V} (hg : VecOK C h g a) {n i : Nat} (hi : i < a.ext) (c : Cell V) :
    vecSet C ⟨g, n⟩ i c h = SVec.set C ⟨g, n⟩ i c h := by
  unfold vecSet SVec.set gridSet Grid.set
  refine congrArg _ (callbackMut_sz (sz_vec hg) (fun e b he hb => ?_))
  have := sel_vec hg he; subst this
  exact setFunctor_eq hL hagg (hsm _ _ he) (Nat.succ_le_of_lt hi) (by simp) (by simp) 1 [c] hb

theorem vecGet_eq {h : Heap V} {g : Grid} {a : AVec V} (hg : VecOK C h g a) {n i : Nat} (hi : i < a.ext) (t : Cell V) :
    vecGet C ⟨g, n⟩ i t h = SVec.get C ⟨g, n⟩ i t h := by
  unfold vecGet SVec.get gridGet Grid.get
  refine congrArg _ (callbackRead_sz (sz_vec hg) (fun e b he hb => ?_))
  have := sel_vec hg he; subst this
  exact getFunctor_eq hL hagg (hsm _ _ he) (Nat.succ_le_of_lt hi) (by simp) (by simp) hb [t]

theorem vecReserve_eq (h1 : OneD C.tr) (dv : V) {h : Heap V} {g : Grid} {a a' : AVec V} {out : ArrOut V} (hg : VecOK C h g a)
    (hf : ∀ i, h.next ≤ i → h.blk i = none) {m : Nat} (hs : VecSpec.reserve C dv a m = some (a', out)) :
    vecReserve C ⟨g, a.n⟩ m h = SVec.reserve C ⟨g, a.n⟩ m h := by
  unfold VecSpec.reserve at hs
  cases hsel : selectSizes C.tr ⟨m, 1, 1⟩ with
  | error e =>
    rw [reserve_throw hsel, vecReserve, new_eq hL hagg hsm, new_throw hsel]
  | ok e =>
    rw [hsel] at hs
    simp only at hs
    split at hs
    · rename_i hc
      obtain ⟨hk, hn, hn', hl⟩ := hc
      obtain ⟨ng, h0, ng', h2, nw, k1, k2, k3, k4, k5, k6, k7⟩ := reserve_grid hL h1 hf hsel dv
      obtain ⟨g1, h01, q1, q2, q3, q4⟩ := new_vec hL h1 dv hf hsel
      rw [k1] at q1
      injection q1 with _ q1
      injection q1 with qg qh
      subst qg; subst qh
      obtain ⟨id, b, b1, b2, b3, -⟩ := hg.buf
      have hidlt : id < h.next := by
        by_contra hge
        rw [hf _ (by omega)] at b2; cases b2
      have hne : id ≠ nw := by have := k5.lo; omega
      have hb2 : h2.blk id = some b := by rw [k5.kept id (fun hh => nomatch hh) hidlt]; exact b2
      have hload : gridLoad C ng' [⟨0, 0, 0, a.n⟩] b a.ext h2 = ng'.load C [⟨0, 0, 0, a.n⟩] b a.ext h2 := by
        unfold gridLoad Grid.load
        refine callbackMut_sz (sz_of_ok k7) (fun e' b' he hb' => ?_)
        rw [hb']
        have hx := ext_le hsm hg
        have hfit := selectSizes_fits he
        rw [k7.1] at hfit
        have htot : aggSize C.L * a.ext ≤ 2 ^ 31 * 2 ^ 31 := Nat.mul_le_mul hagg hx
        refine loadFunctor_eq hL hagg (hsm _ _ he) (by rw [b3, Nat.mul_comm]) (by rw [b3]; omega) (by omega) _ 0 b' ?_ (by simpa using hn')
        intro s hs'
        rw [List.mem_singleton] at hs'
        subst hs'
        have f1 := hfit.1
        have f2 := hfit.2.1
        have f3 := hfit.2.2
        simp only at f1 f2 f3 ⊢
        exact ⟨by omega, by omega, by omega⟩
      unfold vecReserve SVec.reserve
      rw [new_eq hL hagg hsm, k1]
      simp only [k2]
      rw [resize_eq hL hagg hsm (.inr (sz_vec q4)), k3]
      simp only [hg.ex hk, b1, Option.bind_some, hb2]
      rw [hload]
      rcases callbackMut_cases (sz_of_ok k7) k4 (fun e' b' => LFA.loadFunctor C.L e' b a.ext [⟨0, 0, 0, a.n⟩] 0 b') with
        ⟨b', hb⟩ | ⟨u, hb⟩
      · have hb' : ng'.load C [⟨0, 0, 0, a.n⟩] b a.ext h2 = .ok () (h2.set nw b') := hb
        rw [hb']
        simp only
        rw [swap_dtor_dim ng' g e.x a.dim k7.1 hg.dim]
        simp only
        rw [dtor_eq hL hagg hsm (g := ⟨⟨a.dim, 1, 1⟩, g.ex, ng'.ey, ng'.ez, g.bs, g.data⟩) (.inr ⟨⟨a.ext, 1, 1⟩, id, b, hg.sel, b1, by rw [Heap.blk_set_ne _ _ hne]; exact hb2, by
          rw [prod1]; exact b3⟩)]
        rfl
      · have hb' : ng'.load C [⟨0, 0, 0, a.n⟩] b a.ext h2 = .ub u := hb
        rw [hb']
    · cases hs

theorem vecNewFill_eq (h1 : OneD C.tr) (dv : V) {h : Heap V} (hf : ∀ i, h.next ≤ i → h.blk i = none) (n : Nat) (c : Cell V) :
    vecNewFill C n c h = SVec.newFill C n c h := by
  unfold vecNewFill SVec.newFill
  rw [new_eq hL hagg hsm]
  cases hsel : selectSizes C.tr ⟨n, 1, 1⟩ with
  | error e => rw [new_throw hsel]
  | ok e =>
    obtain ⟨g, h', q1, q2, q3, q4⟩ := new_vec hL h1 dv hf hsel
    rw [q1]
    simp only
    have hb : gridBroadcast C g c n h' = g.broadcast C 0 0 0 c n h' := by
      unfold gridBroadcast Grid.broadcast
      refine callbackMut_sz (sz_vec q4) (fun e' b he hb => ?_)
      have hfit := selectSizes_fits he
      rw [q4.dim] at hfit
      have f1 := hfit.1
      have f2 := hfit.2.1
      have f3 := hfit.2.2
      simp only [VecSpec.fill] at f1 f2 f3
      exact setFunctor_eq hL hagg (hsm _ _ he) (by omega) (by omega) (by omega) 0 [c] hb
    rw [hb]
    rcases callbackMut_cases (sz_vec q4) q2 (fun e' => LFA.setFunctor C.L e' 0 [c] 0 0 0 n) with ⟨b', hb⟩ | ⟨u, hb⟩
    · have hb' : g.broadcast C 0 0 0 c n h' = .ok () (h'.set h.next b') := hb
      rw [hb']
    · have hb' : g.broadcast C 0 0 0 c n h' = .ub u := hb
      rw [hb']

theorem vecResize_eq (h1 : OneD C.tr) (dv : V) {h : Heap V} {g : Grid} {a a' : AVec V} {out : ArrOut V} (hg : VecOK C h g a)
    (hf : ∀ i, h.next ≤ i → h.blk i = none) {m : Nat} (hs : VecSpec.resize C dv a m = some (a', out)) :
    vecResize C ⟨g, a.n⟩ m h = SVec.resize C ⟨g, a.n⟩ m h := by
  unfold vecResize SVec.resize
  unfold VecSpec.resize at hs
  have hd : g.dim.x = a.dim := by rw [hg.dim]
  simp only [hd]
  by_cases hm : m > a.dim
  · rw [if_pos hm] at hs
    rw [if_pos hm, if_pos hm]
    cases hr : VecSpec.reserve C dv a m with
    | none => rw [hr] at hs; cases hs
    | some p => rw [vecReserve_eq hL hagg hsm h1 dv hg hf (a' := p.1) (out := p.2) hr]
  · rw [if_neg hm, if_neg hm]

omit hL hagg hsm in
theorem vecCount_eq {g : Grid} {n : Nat} (hn : ((n + 1 : Nat) : Int) < 2 ^ 64) (h : Heap V) :
    vecCount ⟨g, n⟩ h = .ok () (⟨g, n + 1⟩, h) := by
  have h1 : size ((n : Int) + 1) = some ((n + 1 : Nat) : Int) := by
    rw [← size_nat hn]; push_cast; rfl
  unfold vecCount
  exact chkSize_nat h1 _

omit hL hagg hsm in
theorem withVec_bind {α β : Type} (v : SVec) (r : Res (Heap V) α) {f f' : α → VS V → Res (VS V) β}
    (hf : ∀ a h, f a (v, h) = f' a (v, h)) : (Res.withVec v r).bind f = (Res.withVec v r).bind f' := by
  cases r with
  | ok a h => exact hf a h
  | throw e h => simp only [Res.withVec, bind_throw]
  | ub u => simp only [Res.withVec, bind_ub]

/-- Writing behind the last element, and counting it. -/
theorem vecAppend_eq {h : Heap V} {g : Grid} {a : AVec V} (hg : VecOK C h g a) {n : Nat} (hn : n < a.ext) (c : Cell V) :
    ((vecSet C ⟨g, n⟩ n c h).bind fun _ (v, h) => vecCount v h) =
      ((SVec.set C ⟨g, n⟩ n c h).bind fun _ (v, h) => .ok () (⟨v.g, v.n + 1⟩, h)) := by
  rw [vecSet_eq hL hagg hsm hg hn]
  have hx := ext_le hsm hg
  exact withVec_bind _ _ (fun _ h => vecCount_eq (by omega) h)

omit hL hagg hsm in
theorem vecGrow_full (g : Grid) {n : Nat} (hn : n ≤ 2 ^ 31) (h : Heap V) :
    vecGrow C ⟨g, n⟩ n h = vecReserve C ⟨g, n⟩ (grow n) h := by
  unfold vecGrow
  rw [if_pos rfl]
  exact chkSize_nat (size_nat (grow_lt hn)) _

omit hL hagg hsm in
theorem vecGrow_room (g : Grid) {n ex : Nat} (hn : n ≠ ex) (h : Heap V) :
    vecGrow C ⟨g, n⟩ ex h = .ok () (⟨g, n⟩, h) := if_neg hn

theorem vecPush_eq (h1 : OneD C.tr) (dv : V) {h : Heap V} {g : Grid} {a a' : AVec V} {out : ArrOut V} (hg : VecOK C h g a)
    (hf : ∀ i, h.next ≤ i → h.blk i = none) {c : Cell V} (hs : VecSpec.push C dv a c = some (a', out)) :
    vecPush C ⟨g, a.n⟩ c h = SVec.push C ⟨g, a.n⟩ c h := by
  unfold VecSpec.push at hs
  by_cases hk : a.known = true
  · rw [if_pos hk] at hs
    unfold vecPush SVec.push
    simp only [hg.ex hk]
    by_cases hn : a.n = a.ext
    · rw [if_pos hn] at hs
      rw [if_pos hn]
      have hx := ext_le hsm hg
      rw [← hn, vecGrow_full g (by omega)]
      cases hr : VecSpec.reserve C dv a (grow a.n) with
      | none => rw [hr] at hs; cases hs
      | some p =>
        obtain ⟨p1, p2⟩ := p
        rw [vecReserve_eq hL hagg hsm h1 dv hg hf hr]
        rcases reserve_refines hL h1 dv hg hf hr with ⟨e, he, -, q⟩ | ⟨ho, q1, -, g', h', nw, q2, q3, q4, q5⟩
        · rw [q, bind_throw, bind_throw]
        · subst ho
          rw [hr] at hs
          simp only at hs
          split at hs
          · rename_i hw
            rw [q2, bind_ok, bind_ok]
            rw [q1] at hw
            exact vecAppend_eq hL hagg hsm q5 hw.1 c
          · cases hs
    · rw [if_neg hn] at hs
      rw [if_neg hn]
      rw [vecGrow_room g hn, bind_ok, bind_ok]
      simp only at hs
      split at hs
      · rename_i hw
        exact vecAppend_eq hL hagg hsm hg hw.1 c
      · cases hs
  · rw [if_neg hk] at hs; cases hs

theorem vecPop_eq {h : Heap V} {g : Grid} {a : AVec V} (hg : VecOK C h g a) (h0 : 0 < a.n) (hn : a.n - 1 < a.ext) (td : Cell V) :
    vecPop C ⟨g, a.n⟩ td h = SVec.pop C ⟨g, a.n⟩ td h := by
  have hx := ext_le hsm hg
  unfold vecPop SVec.pop
  have h2 : ((a.n : Int) - 1) = ((a.n - 1 : Nat) : Int) := by omega
  have h3 : size ((a.n : Int) - 1) = some ((a.n - 1 : Nat) : Int) := by
    rw [h2]; exact size_nat (lt_of_lt_of_le (b := (2 ^ 31 : Int)) (by omega) (by norm_num))
  rw [chkSize_nat h3, if_neg (show ¬ a.n = 0 by omega)]
  exact vecSet_eq hL hagg hsm hg hn td

theorem vecAssign_eq (dv : V) {w : VecWorld V} {σ : VecSpec.State V} (hR : VR C w σ) {s t : Nat} {a o : AVec V}
    {g og : Grid} (hg1 : w.v s = some ⟨g, a.n⟩) (hg2 : VecOK C w.h g a) (ho1 : w.v t = some ⟨og, o.n⟩) (ho2 : VecOK C w.h og o)
    (hst : s = t → a.dim = o.dim) :
    vecAssign C ⟨g, a.n⟩ ⟨og, o.n⟩ w.h = SVec.assign C ⟨g, a.n⟩ ⟨og, o.n⟩ w.h := by
  have key : assign C g og w.h = g.assign C og w.h := by
    unfold assign Grid.assign
    rw [resize_eq hL hagg hsm (.inr (sz_vec hg2))]
    by_cases hdim : a.dim = o.dim
    · rw [resize_same (C := C) (h := w.h) (g := g) (d := og.dim) (by rw [hg2.dim, ho2.dim, hdim]), bind_ok, bind_ok]
      exact copyIn_sz hL hagg hsm (sz_vec hg2) (sz_vec ho2) (by rw [hg2.dim, ho2.dim, hdim])
    · obtain ⟨id, h0, d1, d2, d3, d4, d5, bc, d6, d7⟩ := hg2.destroy hL
      obtain ⟨ido, bo, q1, q2, _⟩ := ho2.buf
      have hido := hR.data_lt ho1 q1
      have hne : ido ≠ id := by
        rintro rfl
        exact hdim (hst (hR.own s t _ _ _ hg1 ho1 d1 q1))
      let g2 : Grid := { g with dim := og.dim, ex := some o.ext, ey := some 1, ez := some 1,
                                bs := some (byteSizeOf C.L ⟨o.ext, 1, 1⟩), data := some h0.next }
      obtain ⟨b1, k1, k2⟩ := grid_init (h := h0) hL ho2.sel dv g2 ho2.dim rfl rfl (some ⟨o.ext, 1, 1⟩)
        (fun e' he => by cases he; exact ⟨rfl, rfl, rfl, rfl⟩)
      have ho3 : Sz C ((h0.alloc (byteSizeOf C.L ⟨o.ext, 1, 1⟩)).2.set h0.next b1) og := by
        refine (sz_vec ho2).frame (fun i hi => ?_)
        rw [q1] at hi; cases hi
        rw [Heap.blk_set_ne _ _ (by omega)]
        simp only [Heap.alloc]
        rw [if_neg (by omega)]
        exact d5 _ hne
      have hne' : ¬ (g.dim.x = og.dim.x ∧ g.dim.y = og.dim.y ∧ g.dim.z = og.dim.z) := by
        rw [hg2.dim, ho2.dim]; intro h; exact hdim h.1
      have hres : g.resize C og.dim w.h =
          .ok () (g2, (h0.alloc (byteSizeOf C.L ⟨o.ext, 1, 1⟩)).2.set h0.next b1) := by
        unfold Grid.resize
        rw [if_neg hne']
        have hsel : selectSizes C.tr og.dim = .ok ⟨o.ext, 1, 1⟩ := by rw [ho2.dim]; exact ho2.sel
        simp only [d2, Res.withGrid, Res.bind, hsel]
        have : (h0.alloc (byteSizeOf C.L ⟨o.ext, 1, 1⟩)).1 = h0.next := rfl
        simp only [this]
        show Res.withGrid g2 (g2.init C _) = _
        rw [k1]; rfl
      rw [hres, bind_ok, bind_ok]
      exact copyIn_sz hL hagg hsm (sz_of_ok k2) ho3 rfl
  unfold vecAssign SVec.assign
  simp only [key]
  rfl

/-- What the arguments of an operation have to respect beyond its contract: the accessor of a user's functor is positioned inside
of the buffer before it is shifted to a neighbour. -/
def FitsV (σ : VecSpec.State V) : VecOp V → Prop
  | .poke s x _ _ _ _ | .peek s x _ _ _ => ∀ a, σ s = some a → 0 ≤ x ∧ x < a.ext
  | _ => True

theorem vecStep_eq (h1 : OneD C.tr) (dv : V) {w : VecWorld V} {σ σ' : VecSpec.State V} (hR : VR C w σ) (op : VecOp V)
    {out : ArrOut V} (hs : VecSpec.step C dv σ op = some (σ', out)) (hfit : FitsV σ op) :
    vecStep C w op = w.step C op := by
  have near : ∀ {g : Grid} {a : AVec V} {x X : Int}, VecOK C w.h g a → 0 ≤ x → x < a.ext → 0 ≤ x + X →
      (a.cells (x + X).toNat).isSome = true → Near ⟨a.ext, 1, 1⟩ x 0 0 X 0 0 := by
    intro g a x X hg h0 h2 h3 h4
    have := hg.bnd _ h4
    exact ⟨h0, h2, by omega, by simp, by omega, by simp, h3, by show x + X < (a.ext : Int); omega, by omega, by simp, by omega, by simp⟩
  cases op with
  | new s n =>
    simp only [vecStep, VecWorld.step, vecNew, SVec.new, new_eq hL hagg hsm]
    rfl
  | newFill s n c => simp only [vecStep, VecWorld.step, vecNewFill_eq hL hagg hsm h1 dv hR.fresh]; rfl
  | copy s t =>
    simp only [VecSpec.step] at hs
    cases hσt : σ t with
    | none => rw [hσt] at hs; cases hss : σ s <;> rw [hss] at hs <;> cases hs
    | some o =>
      obtain ⟨og, ho1, ho2⟩ := hR.vec hσt
      simp only [vecStep, VecWorld.step, VecWorld.withV, ho1, vecCopyCtor, SVec.copyCtor]
      rw [copyCtor_sz hL hagg hsm (sz_vec ho2) (fun e he => by rw [sel_vec ho2 he]; exact ho2.bs)
        (fun id hid => hR.data_lt (v := ⟨og, o.n⟩) ho1 hid) dv]
      rfl
  | assign s t =>
    simp only [VecSpec.step] at hs
    cases hσs : σ s with
    | none => rw [hσs] at hs; cases hs
    | some a =>
    cases hσt : σ t with
    | none => rw [hσs, hσt] at hs; cases hs
    | some o =>
    obtain ⟨g, hg1, hg2⟩ := hR.vec hσs
    obtain ⟨og, ho1, ho2⟩ := hR.vec hσt
    simp only [vecStep, VecWorld.step, VecWorld.withV, hg1, ho1]
    rw [vecAssign_eq hL hagg hsm dv hR hg1 hg2 ho1 ho2 (fun h => by subst h; rw [hσs] at hσt; cases hσt; rfl)]
  | destroy s =>
    simp only [VecSpec.step] at hs
    cases hσs : σ s with
    | none => rw [hσs] at hs; cases hs
    | some a =>
      obtain ⟨g, hg1, hg2⟩ := hR.vec hσs
      simp only [vecStep, VecWorld.step, VecWorld.withV, hg1, SVec.dtor]
      rw [dtor_eq hL hagg hsm (.inr (sz_vec hg2))]
      rfl
  | set s i c =>
    obtain ⟨a, a', hσs, hf, -⟩ := onVec_some hs
    obtain ⟨g, hg1, hg2⟩ := hR.vec hσs
    simp only [vecStep, VecWorld.step, VecWorld.withV, hg1]
    split at hf
    · rename_i hw; rw [vecSet_eq hL hagg hsm hg2 hw.1]
    · cases hf
  | get s i t =>
    obtain ⟨a, a', hσs, hf, -⟩ := onVec_some hs
    obtain ⟨g, hg1, hg2⟩ := hR.vec hσs
    simp only [vecStep, VecWorld.step, VecWorld.withV, hg1]
    cases hc : a.cells i with
    | none => rw [hc] at hf; cases hf
    | some c => rw [vecGet_eq hL hagg hsm hg2 (hg2.bnd i (by rw [hc]; rfl))]
  | push s c =>
    obtain ⟨a, a', hσs, hf, -⟩ := onVec_some hs
    obtain ⟨g, hg1, hg2⟩ := hR.vec hσs
    simp only [vecStep, VecWorld.step, VecWorld.withV, hg1]
    rw [vecPush_eq hL hagg hsm h1 dv hg2 hR.fresh hf]
  | pop s td =>
    obtain ⟨a, a', hσs, hf, -⟩ := onVec_some hs
    obtain ⟨g, hg1, hg2⟩ := hR.vec hσs
    simp only [vecStep, VecWorld.step, VecWorld.withV, hg1]
    split at hf
    · rename_i hw; rw [vecPop_eq hL hagg hsm hg2 hw.1 hw.2.1]
    · cases hf
  | clear s => rfl
  | resize s m =>
    obtain ⟨a, a', hσs, hf, -⟩ := onVec_some hs
    obtain ⟨g, hg1, hg2⟩ := hR.vec hσs
    simp only [vecStep, VecWorld.step, VecWorld.withV, hg1]
    rw [vecResize_eq hL hagg hsm h1 dv hg2 hR.fresh hf]
  | reserve s m =>
    obtain ⟨a, a', hσs, hf, -⟩ := onVec_some hs
    obtain ⟨g, hg1, hg2⟩ := hR.vec hσs
    simp only [vecStep, VecWorld.step, VecWorld.withV, hg1]
    rw [vecReserve_eq hL hagg hsm h1 dv hg2 hR.fresh hf]
  | size s => rfl
  | capacity s => rfl
  | empty s => rfl
  | poke s x X r k val =>
    obtain ⟨a, a', hσs, hf, -⟩ := onVec_some hs
    obtain ⟨g, hg1, hg2⟩ := hR.vec hσs
    obtain ⟨hx0, hx1⟩ := hfit a hσs
    simp only [vecStep, VecWorld.step, VecWorld.withV, hg1]
    cases hm : C.L[r]? with
    | none => rw [hm] at hf; cases hf
    | some m =>
      cases hc : a.cells (x + X).toNat with
      | none => rw [hm, hc] at hf; cases hf
      | some c =>
        rw [hm, hc] at hf
        simp only at hf
        split at hf
        · rename_i hw
          rw [callbackMut_sz (sz_vec hg2) (fun e b he hb => ?_)]
          have := sel_vec hg2 he; subst this
          simp only [pokeFunctor, LFA.pokeFunctor, hm]
          rw [hb, chk_some (userRef_ok hL hagg (hsm _ _ he) (near hg2 hx0 hx1 hw.1 (by rw [hc]; rfl)) hm hw.2)]
        · cases hf
  | peek s x X r k =>
    obtain ⟨a, a', hσs, hf, -⟩ := onVec_some hs
    obtain ⟨g, hg1, hg2⟩ := hR.vec hσs
    obtain ⟨hx0, hx1⟩ := hfit a hσs
    simp only [vecStep, VecWorld.step, VecWorld.withV, hg1]
    cases hm : C.L[r]? with
    | none => rw [hm] at hf; cases hf
    | some m =>
      cases hc : a.cells (x + X).toNat with
      | none => rw [hm, hc] at hf; cases hf
      | some c =>
        rw [hm, hc] at hf
        simp only at hf
        split at hf
        · rename_i hw
          have key := callbackRead_sz (sz_vec hg2) (f := fun e b => peekFunctor C.L e x 0 0 X 0 0 r k b)
            (f' := fun e b => LFA.peekFunctor C.L e x 0 0 X 0 0 r k b) (fun e b he hb => by
              have := sel_vec hg2 he; subst this
              simp only [peekFunctor, LFA.peekFunctor, hm]
              rw [hb, chk_some (userRef_ok hL hagg (hsm _ _ he) (near hg2 hx0 hx1 hw.1 (by rw [hc]; rfl)) hm hw.2)])
          rw [key]
          rfl
        · cases hf

end
end LFA.Mach
