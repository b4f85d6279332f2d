/-
  C83: functors which consist of vectorised loops, searches for interacting pairs and scalar code compute what scalar code computes.
-/
import Verif.Simulation
import Verif.Props.BufferKernel
set_option linter.unusedSectionVars false
namespace LFA.GK
open SV (Expr Entry FEnv Mem Writes Faithful Transfers Reqs lane FOps)
open Thr (Loc Ref InGrid ValueIs InA valA inA_iff)

variable {V : Type} [DecidableEq V] {C : Cfg V} {dv : V} {w : Nat}

/-! ### Scalar code -/

/-- A statement for particle `x`. -/
def Assign.apply (B : Bits w V) (F : FOps w) (s : Nat) (a : Assign w) (x : Int) (σ : Loc → V) : Loc → V := fun l =>
  if l = mem s x a.dst.1 a.dst.2 then B.val (a.code.scalar F fun v => (B.bits (σ (mem s x (a.src v).1 (a.src v).2))).getD 0) else σ l

/-- The scalar code: `for (x = 0; x < n; ++x) { member[x] = expression; … }`, and two nested loops for interactions. -/
def Phase.scalar (B : Bits w V) (F : FOps w) (s : Nat) (σ : Loc → V) : Phase w V → Loc → V
  | .fill as _ n => (Peel.iota 0 n).foldl (fun σ x => as.foldl (fun σ (a : Assign w) => a.apply B F s x σ) σ) σ
  | .pairs K us _ n => (K.all B F s (applyAll B F s us) n (fun _ => n) (σ, ())).1
  | .buffered K U _ _ n => (K.all B F s (U.now B F s) n (fun _ => n) (σ, ())).1

/-- The functor on plain arrays: values and output in the end. -/
def Code.scalar (B : Bits w V) (F : FOps w) (s : Nat) : Code w V → (Loc → V) → (Loc → V) × List (BitVec w)
  | .done, σ => (σ, [])
  | .read x r k c, σ => (c ((B.bits (σ (mem s x r k))).getD 0)).scalar B F s σ
  | .write x r k v c, σ => c.scalar B F s fun l => if l = mem s x r k then B.val v else σ l
  | .emit v c, σ => ((c.scalar B F s σ).1, v :: (c.scalar B F s σ).2)
  | .loop p c, σ => c.scalar B F s (p.scalar B F s σ)

/-- A member of the type of the vectors' elements. -/
def IsNumber (C : Cfg V) (w : Nat) (r k : Nat) : Prop := ∃ m, C.L[r]? = some m ∧ m.ty.size = w / 8 ∧ k < m.elems

/-- A vectorised loop may be run: particles exist, members are of the vectors' type, those which are read hold numbers. `N`: arity. -/
def Phase.Safe (C : Cfg V) (B : Bits w V) (s : Nat) (dm : Ext) (N : Nat) (d f : Bool) (σ : Loc → V) : Phase w V → Prop
  | .fill as t n => t.Ok N n ∧ n ≤ dm.x ∧ ∀ a ∈ as, a.code.only d f true = true ∧ IsNumber C w a.dst.1 a.dst.2 ∧
      ∀ v ∈ a.code.vars, IsNumber C w (a.src v).1 (a.src v).2 ∧
        ∀ x : Int, 0 ≤ x → x < n → (B.bits (σ (mem s x (a.src v).1 (a.src v).2))).isSome = true
  | .pairs K us t n => t.Ok N n ∧ N ∣ n ∧ n ≤ dm.x ∧ Separate K us ∧ K.test.only d f true = true ∧ (∀ ex ∈ K.vals, ex.only d f true = true) ∧
      (∀ r k, Uses K us r k → IsNumber C w r k) ∧ Numbers B s (fun x => 0 ≤ x ∧ x < n) (Reads K us) σ
  | .buffered K U _ t n => t.Ok N n ∧ N ∣ n ∧ n ≤ dm.x ∧ n ≤ 2 ^ 31 ∧ U.Fits K N ∧ K.test.only d f true = true ∧
      (∀ ex ∈ K.vals, ex.only d f true = true) ∧ (∀ ex ∈ U.code, ex.only d f true = true) ∧
      (∀ r k, U.Uses K r k → IsNumber C w r k) ∧ Numbers B s (fun x => 0 ≤ x ∧ x < n) (U.Reads K) σ

/-- The functor may be run: it accesses particles which exist, and reads numbers. -/
def Code.Safe (C : Cfg V) (B : Bits w V) (F : FOps w) (s : Nat) (dm : Ext) (N : Nat) (d f : Bool) : Code w V → (Loc → V) → Prop
  | .done, _ => True
  | .read x r k c, σ => 0 ≤ x ∧ x < dm.x ∧ IsNumber C w r k ∧ (B.bits (σ (mem s x r k))).isSome = true ∧
      (c ((B.bits (σ (mem s x r k))).getD 0)).Safe C B F s dm N d f σ
  | .write x r k v c, σ => 0 ≤ x ∧ x < dm.x ∧ IsNumber C w r k ∧
      c.Safe C B F s dm N d f fun l => if l = mem s x r k then B.val v else σ l
  | .emit _ c, σ => c.Safe C B F s dm N d f σ
  | .loop p c, σ => p.Safe C B s dm N d f σ ∧ c.Safe C B F s dm N d f (p.scalar B F s σ)

/-! ### Order of statements -/

theorem Assign.comm (B : Bits w V) (F : FOps w) (s : Nat) (a b : Assign w) {x y : Int} (h : x ≠ y) (σ : Loc → V) :
    a.apply B F s x (b.apply B F s y σ) = b.apply B F s y (a.apply B F s x σ) := by
  have hne : ∀ (x y : Int) (r k r' k' : Nat), x ≠ y → mem s x r k ≠ mem s y r' k' := by
    intro x y r k r' k' h he
    simp only [mem, Loc.mk.injEq] at he
    exact h he.2.1
  funext l
  unfold Assign.apply
  simp only [if_neg (hne x y _ _ _ _ h), if_neg (hne y x _ _ _ _ (Ne.symm h))]
  by_cases h1 : l = mem s x a.dst.1 a.dst.2
  · rw [if_pos h1, if_neg (h1 ▸ hne x y _ _ _ _ h), if_pos h1]
  · rw [if_neg h1]
    by_cases h2 : l = mem s y b.dst.1 b.dst.2
    · rw [if_pos h2, if_pos h2]
    · rw [if_neg h2, if_neg h2, if_neg h1]

theorem interchange {α S : Type} (f : α → Int → S → S) (hf : ∀ a b x y, x ≠ y → ∀ σ, f a x (f b y σ) = f b y (f a x σ)) :
    ∀ (xs : List Int), xs.Nodup → ∀ (as : List α) (σ : S),
      as.foldl (fun σ a => xs.foldl (fun σ x => f a x σ) σ) σ = xs.foldl (fun σ x => as.foldl (fun σ a => f a x σ) σ) σ := by
  intro xs
  induction xs with
  | nil =>
    intro _ as
    induction as with
    | nil => intro σ; rfl
    | cons a as ih => intro σ; simp
  | cons x xs ih =>
    intro hn as σ
    rw [List.nodup_cons] at hn
    have h1 : ∀ (a b : α) (ys : List Int), x ∉ ys → ∀ τ, f b x (ys.foldl (fun σ y => f a y σ) τ) = ys.foldl (fun σ y => f a y σ) (f b x τ) := by
      intro a b ys
      induction ys with
      | nil => intro _ τ; rfl
      | cons y ys ihy =>
        intro hy τ
        simp only [List.mem_cons, not_or] at hy
        rw [List.foldl_cons, List.foldl_cons, ihy hy.2, hf b a x y hy.1]
    have h2 : ∀ (a : α) (bs : List α) τ, bs.foldl (fun σ b => f b x σ) (xs.foldl (fun σ y => f a y σ) τ) =
        xs.foldl (fun σ y => f a y σ) (bs.foldl (fun σ b => f b x σ) τ) := by
      intro a bs
      induction bs with
      | nil => intro τ; rfl
      | cons b bs ihb => intro τ; rw [List.foldl_cons, List.foldl_cons, h1 a b xs hn.1, ihb]
    have h3 : ∀ (bs : List α) τ, bs.foldl (fun σ a => xs.foldl (fun σ x => f a x σ) (f a x σ)) τ =
        bs.foldl (fun σ a => xs.foldl (fun σ x => f a x σ) σ) (bs.foldl (fun σ a => f a x σ) τ) := by
      intro bs
      induction bs with
      | nil => intro τ; rfl
      | cons b bs ihb => intro τ; simp only [List.foldl_cons]; rw [ihb, h2 b bs]
    simp only [List.foldl_cons]
    rw [h3, ih hn.2]

theorem nodup_iota (x : Int) (n : Nat) : (Peel.iota x n).Nodup := by
  unfold Peel.iota
  refine List.pairwise_map.2 (List.nodup_range.imp fun h he => h ?_)
  omega

/-! ### Vectorised loops -/

/-- A statement for several particles. -/
theorem apply_iota (B : Bits w V) (F : FOps w) (s : Nat) (a : Assign w) (x : Int) (n : Nat) (σ : Loc → V) :
    (∀ i < n, (Peel.iota x n).foldl (fun σ y => a.apply B F s y σ) σ (mem s (x + (i : Nat)) a.dst.1 a.dst.2) =
      B.val (a.code.scalar F fun v => (B.bits (σ (mem s (x + (i : Nat)) (a.src v).1 (a.src v).2))).getD 0)) ∧
    ∀ l, (∀ i < n, l ≠ mem s (x + (i : Nat)) a.dst.1 a.dst.2) → (Peel.iota x n).foldl (fun σ y => a.apply B F s y σ) σ l = σ l := by
  induction n generalizing x σ with
  | zero => exact ⟨fun i hi => absurd hi (Nat.not_lt_zero i), fun l _ => rfl⟩
  | succ n ih =>
    obtain ⟨k1, k2⟩ := ih (x + 1) (a.apply B F s x σ)
    have hne : ∀ (i : Nat) (r k r' k' : Nat), mem s (x + 1 + (i : Nat)) r k ≠ mem s x r' k' := by
      intro i r k r' k' he
      simp only [mem, Loc.mk.injEq] at he
      omega
    rw [iota_succ, List.foldl_cons]
    refine ⟨fun i hi => ?_, fun l hl => ?_⟩
    · cases i with
      | zero =>
        rw [k2 _ fun i _ => by simpa using (hne i _ _ _ _).symm]
        simp [Assign.apply]
      | succ i =>
        rw [show x + ((i + 1 : Nat) : Int) = x + 1 + (i : Nat) by push_cast; omega, k1 i (by omega)]
        congr 1
        refine SV.Expr.scalar_congr F a.code fun v _ => ?_
        unfold Assign.apply
        rw [if_neg (hne i _ _ _ _)]
    · rw [k2 l fun i hi => by
        have := hl (i + 1) (by omega)
        rwa [show x + ((i + 1 : Nat) : Int) = x + 1 + (i : Nat) by push_cast; omega] at this]
      unfold Assign.apply
      rw [if_neg (by simpa using hl 0 (by omega))]

/-- The statement stores a number, so members which hold numbers keep holding numbers. -/
theorem apply_isSome (B : Bits w V) (F : FOps w) (s : Nat) (a : Assign w) (y : Int) (σ : Loc → V) (l : Loc) (h : (B.bits (σ l)).isSome = true) :
    (B.bits (a.apply B F s y σ l)).isSome = true := by
  unfold Assign.apply
  split
  · rw [B.bits_val]; rfl
  · exact h

theorem foldl_isSome (B : Bits w V) (F : FOps w) (s : Nat) (as : List (Assign w)) (y : Int) : ∀ (σ : Loc → V) (l : Loc), (B.bits (σ l)).isSome = true →
    (B.bits (as.foldl (fun σ (a : Assign w) => a.apply B F s y σ) σ l)).isSome = true := by
  induction as with
  | nil => intro σ l h; exact h
  | cons a as ih => intro σ l h; exact ih _ l (apply_isSome B F s a y σ l h)

theorem iota_isSome (B : Bits w V) (F : FOps w) (s : Nat) (as : List (Assign w)) : ∀ (ys : List Int) (σ : Loc → V) (l : Loc), (B.bits (σ l)).isSome = true →
    (B.bits (ys.foldl (fun σ y => as.foldl (fun σ (a : Assign w) => a.apply B F s y σ) σ) σ l)).isSome = true := by
  intro ys
  induction ys with
  | nil => intro σ l h; exact h
  | cons y ys ih => intro σ l h; exact ih _ l (foldl_isSome B F s as y σ l h)

/-- One vectorised statement. -/
theorem assign_ok (hL : C.L.WF) (B : Bits w V) (base : Nat → Nat) (E : FEnv) (F : FOps w) {a : Assign w} {A : One} {e : Entry w} {Q : Reqs}
    {d f c : Bool} (H : Faithful e.impl e.cmp E F d f c) (T : Transfers e.impl Q E) (hQ : Q.any = 1) (hk : a.code.only d f c = true)
    (hw : 0 < w / 8) (hN : 0 < e.impl.N) {W : World V} {s : Nat} (hs : Has C W s A.e A.id) {x : Int}
    (hd : ∀ i < e.impl.N, Reach C w base A W s (x + (i : Nat)) a.dst.1 a.dst.2)
    (hsrc : ∀ v ∈ a.code.vars, ∀ i < e.impl.N, Reach C w base A W s (x + (i : Nat)) (a.src v).1 (a.src v).2)
    {h : Heap V} {σ : Loc → V} (hG : Good C dv W h σ)
    (hnum : ∀ v ∈ a.code.vars, ∀ i < e.impl.N, (B.bits (σ (mem s (x + (i : Nat)) (a.src v).1 (a.src v).2))).isSome = true) :
    ∃ h', body ⟨C.L, B, base, E⟩ a.stencil A.pair e x 0 0 h = some h' ∧
      Good C dv W h' ((Peel.iota x e.impl.N).foldl (fun σ y => a.apply B F s y σ) σ) := by
  obtain ⟨ab, hR, hi, hv⟩ := hG.refines hL
  have e1 : ∀ v y, a.stencil.srcLoc s s v y 0 0 = mem s y (a.src v).1 (a.src v).2 := fun v y => by
    simp [Stencil.srcLoc, Stencil.slot, Assign.stencil, at', mem]
  have e2 : ∀ y, a.stencil.dstLoc s y 0 0 = mem s y a.dst.1 a.dst.2 := fun y => by
    simp [Stencil.dstLoc, Assign.stencil, at', mem]
  have hx0 : ∀ r k, (∀ i < e.impl.N, Reach C w base A W s (x + (i : Nat)) r k) → Pointer C w (base A.id) A.e 1 ⟨0, 0, 0, r, k⟩ x 0 0 := by
    intro r k h
    have := (h 0 hN).2
    simpa using this
  obtain ⟨h', a', vs, os, k1, k2, k3, k4, k5, k6, k7⟩ := body_ok (dv := dv) hL B base E (K := a.stencil) (A := A.pair) H T hk hw hN (al := 1)
    (by simp [Mode.storeReq, Assign.stencil, hQ]) (s := s) (o := s) (W := ⟨h, W.g⟩) hR hs hs x 0 0
    (fun v hv => by
      simp only [Assign.stencil, One.pair, Mode.loadReq, hQ, Bool.false_eq_true, if_false]
      exact hx0 _ _ (hsrc v hv))
    (hx0 _ _ hd)
    (fun v hv i hi' => by rw [e1]; exact (hi _).2 (hsrc v hv i hi').1)
    (fun i hi' => by rw [e2]; exact (hi _).2 (hd i hi').1)
    (fun i v => (B.bits (σ (mem s (x + (i : Nat)) (a.src v).1 (a.src v).2))).getD 0)
    (fun v hv' i hi' => by
      rw [e1, hv _ ((hi _).2 (hsrc v hv' i hi').1)]
      obtain ⟨y, hy⟩ := Option.isSome_iff_exists.1 (hnum v hv' i hi')
      rw [hy]; rfl)
  refine ⟨h', k1, ?_, fun l hl => ?_⟩
  · refine pokes_valid hL (o := s) (X := 0) (Y := 0) (Z := 0) (r := a.dst.1) (k := a.dst.2) _ hG.1 hR k3 fun op hop => ?_
    obtain ⟨q, hq, rfl⟩ := List.mem_map.1 hop
    obtain ⟨i, hi', hqi⟩ := k4 q hq
    refine ⟨x + q.1, 0, 0, q.2, ?_, rfl⟩
    have := (hi _).2 (hd i hi').1
    rw [hqi]
    simpa [mem] using this
  · have hl' := (hi l).2 hl
    have hval := valA_valueIs (dv := dv) hL k2 ((k5 l).2 hl')
    obtain ⟨m1, m2⟩ := apply_iota B F s a x e.impl.N σ
    by_cases hex : ∃ i < e.impl.N, l = mem s (x + (i : Nat)) a.dst.1 a.dst.2
    · obtain ⟨i, hi', rfl⟩ := hex
      rw [m1 i hi']
      have := k6 i hi'
      rw [e2] at this
      rw [this] at hval
      exact hval
    · have hne : ∀ i < e.impl.N, l ≠ mem s (x + (i : Nat)) a.dst.1 a.dst.2 := fun i hi' he => hex ⟨i, hi', he⟩
      rw [m2 l hne]
      rw [k7 l hl' fun i hi' => by rw [e2]; exact hne i hi', hv l hl'] at hval
      exact hval

/-- The body of the loop. -/
theorem fillBody_ok (hL : C.L.WF) (B : Bits w V) (base : Nat → Nat) (E : FEnv) (F : FOps w) {A : One} {e : Entry w} {Q : Reqs}
    {d f c : Bool} (H : Faithful e.impl e.cmp E F d f c) (T : Transfers e.impl Q E) (hQ : Q.any = 1)
    (hw : 0 < w / 8) (hN : 0 < e.impl.N) {W : World V} {s : Nat} (hs : Has C W s A.e A.id) {x : Int} (as : List (Assign w))
    (hk : ∀ a ∈ as, a.code.only d f c = true)
    (hd : ∀ a ∈ as, ∀ i < e.impl.N, Reach C w base A W s (x + (i : Nat)) a.dst.1 a.dst.2)
    (hsrc : ∀ a ∈ as, ∀ v ∈ a.code.vars, ∀ i < e.impl.N, Reach C w base A W s (x + (i : Nat)) (a.src v).1 (a.src v).2)
    {h : Heap V} {σ : Loc → V} (hG : Good C dv W h σ)
    (hnum : ∀ a ∈ as, ∀ v ∈ a.code.vars, ∀ i < e.impl.N, (B.bits (σ (mem s (x + (i : Nat)) (a.src v).1 (a.src v).2))).isSome = true) :
    ∃ h', fillBody ⟨C.L, B, base, E⟩ A as e x h = some h' ∧
      Good C dv W h' ((Peel.iota x e.impl.N).foldl (fun σ y => as.foldl (fun σ (a : Assign w) => a.apply B F s y σ) σ) σ) := by
  rw [← interchange (fun (a : Assign w) => a.apply B F s) (fun a b x y h σ => a.comm B F s b h σ) _ (nodup_iota _ _)]
  induction as generalizing h σ with
  | nil => exact ⟨h, rfl, hG⟩
  | cons a as ih =>
    obtain ⟨h1, k1, k2⟩ := assign_ok (dv := dv) hL B base E F H T hQ (hk a (by simp)) hw hN hs (hd a (by simp)) (hsrc a (by simp)) hG (hnum a (by simp))
    have hnum' := iota_isSome B F s [a] (Peel.iota x e.impl.N) σ
    obtain ⟨h2, k3, k4⟩ := ih (fun b hb => hk b (by simp [hb])) (fun b hb => hd b (by simp [hb])) (fun b hb => hsrc b (by simp [hb])) k2
      (fun b hb v hv i hi => hnum' _ (hnum b (by simp [hb]) v hv i hi))
    refine ⟨h2, ?_, k4⟩
    unfold fillBody at k3 ⊢
    simp only [List.foldlM_cons, k1]
    exact k3

theorem fillCalls_ok (hL : C.L.WF) (B : Bits w V) (base : Nat → Nat) (E : FEnv) (F : FOps w) {A : One} {e1 e : Entry w} {Q1 Q : Reqs}
    {d f c : Bool} (H1 : Faithful e1.impl e1.cmp E F d f c) (H : Faithful e.impl e.cmp E F d f c) (T1 : Transfers e1.impl Q1 E)
    (T : Transfers e.impl Q E) (hQ1 : Q1.any = 1) (hQ : Q.any = 1) (h1 : e1.impl.N = 1)
    (hw : 0 < w / 8) (hN : 0 < e.impl.N) {W : World V} {s : Nat} (hs : Has C W s A.e A.id) (as : List (Assign w))
    (hk : ∀ a ∈ as, a.code.only d f c = true) {rng : Int → Prop}
    (hd : ∀ a ∈ as, ∀ x, rng x → Reach C w base A W s x a.dst.1 a.dst.2)
    (hsrc : ∀ a ∈ as, ∀ v ∈ a.code.vars, ∀ x, rng x → Reach C w base A W s x (a.src v).1 (a.src v).2) :
    ∀ (cs : List (Nat × Int)), (∀ q ∈ cs, (q.1 = 1 ∨ q.1 = e.impl.N) ∧ ∀ l < q.1, rng (q.2 + (l : Nat))) →
      ∀ (h : Heap V) (σ : Loc → V), Good C dv W h σ →
      (∀ a ∈ as, ∀ v ∈ a.code.vars, ∀ x, rng x → (B.bits (σ (mem s x (a.src v).1 (a.src v).2))).isSome = true) →
      ∃ h', fillCalls ⟨C.L, B, base, E⟩ A as e1 e cs h = some h' ∧
        Good C dv W h' ((Peel.visits cs).foldl (fun σ y => as.foldl (fun σ (a : Assign w) => a.apply B F s y σ) σ) σ) := by
  intro cs
  induction cs with
  | nil => intro _ h σ hG _; exact ⟨h, rfl, hG⟩
  | cons q cs ih =>
    intro hcs h σ hG hnum
    obtain ⟨hq, hq'⟩ := hcs q (by simp)
    have hb : ∃ h', fillBody ⟨C.L, B, base, E⟩ A as (if q.1 = e.impl.N then e else e1) q.2 h = some h' ∧
        Good C dv W h' ((Peel.iota q.2 q.1).foldl (fun σ y => as.foldl (fun σ (a : Assign w) => a.apply B F s y σ) σ) σ) := by
      by_cases hqN : q.1 = e.impl.N
      · rw [if_pos hqN, hqN]
        rw [hqN] at hq'
        exact fillBody_ok hL B base E F H T hQ hw hN hs as hk (fun a ha i hi => hd a ha _ (hq' i hi))
          (fun a ha v hv i hi => hsrc a ha v hv _ (hq' i hi)) hG (fun a ha v hv i hi => hnum a ha v hv _ (hq' i hi))
      · have hq1 : q.1 = e1.impl.N := by rw [h1]; exact hq.resolve_right hqN
        rw [if_neg hqN, hq1]
        rw [hq1] at hq'
        exact fillBody_ok hL B base E F H1 T1 hQ1 hw (by omega) hs as hk (fun a ha i hi => hd a ha _ (hq' i hi))
          (fun a ha v hv i hi => hsrc a ha v hv _ (hq' i hi)) hG (fun a ha v hv i hi => hnum a ha v hv _ (hq' i hi))
    obtain ⟨h2, k1, k2⟩ := hb
    obtain ⟨h3, k3, k4⟩ := ih (fun q' h' => hcs q' (by simp [h'])) h2 _ k2 (fun a ha v hv x hx => iota_isSome B F s as _ σ _ (hnum a ha v hv x hx))
    refine ⟨h3, by simp only [fillCalls, k1, Option.bind_some, k3], ?_⟩
    simpa only [Peel.visits, List.flatMap_cons, List.foldl_append] using k4

/-! ### Scalar accesses -/

theorem arrayElem_eq (T : Env w V) (A : One) (x : Int) (r k : Nat) (m : Member V) (hw : 0 < w / 8) :
    arrayElem T A x r k m = elem (w := w) T.L (T.base A.id) A.e x 0 0 ⟨0, 0, 0, r, k⟩ m := by
  unfold arrayElem elem
  rw [addr_add T.L (T.base A.id) A.e x 0 0 ⟨0, 0, 0, r, k⟩ m]
  by_cases hm : m.ty.size = w / 8
  · rw [hm]
    by_cases hd : ((w / 8 : Nat) : Int) ∣ addr T.L (T.base A.id) A.e 0 0 0 ⟨0, 0, 0, r, k⟩ m
    · rw [if_pos ⟨rfl, hd⟩, if_pos ⟨rfl, Int.dvd_add hd ⟨x, Int.mul_comm _ _⟩⟩, Option.map_some,
        Int.add_mul_ediv_right _ _ (by omega)]
    · rw [if_neg (fun h => hd h.2), if_neg]
      · rfl
      · rintro ⟨-, h⟩
        exact hd ((Int.dvd_add_left ⟨x, Int.mul_comm _ _⟩).1 h)
  · rw [if_neg (fun h => hm h.1), if_neg (fun h => hm h.1)]
    rfl

theorem arrayGet_eq (T : Env w V) (A : One) (x : Int) (r k : Nat) (hw : 0 < w / 8) (h : Heap V) : arrayGet T A x r k h = fetch T A h x r k := by
  unfold arrayGet fetch
  simp only [arrayElem_eq T A x r k _ hw]
  rfl

theorem arraySet_eq (T : Env w V) (A : One) (x : Int) (r k : Nat) (hw : 0 < w / 8) (v : BitVec w) (h : Heap V) :
    arraySet T A x r k v h = store T A x r k v h := by
  unfold arraySet store
  simp only [arrayElem_eq T A x r k _ hw]
  rfl

/-! ### Functors -/

theorem fill_ok (hL : C.L.WF) (B : Bits w V) (base : Nat → Nat) (E : FEnv) (F : FOps w) {A : One} {e1 e : Entry w} {Q1 Q : Reqs}
    {d f c : Bool} (H1 : Faithful e1.impl e1.cmp E F d f c) (H : Faithful e.impl e.cmp E F d f c) (T1 : Transfers e1.impl Q1 E)
    (T : Transfers e.impl Q E) (hQ1 : Q1.any = 1) (hQ : Q.any = 1) (h1 : e1.impl.N = 1)
    (hw : 0 < w / 8) (hN : 0 < e.impl.N) {W : World V} {s : Nat} (hs : Has C W s A.e A.id) (as : List (Assign w))
    (hk : ∀ a ∈ as, a.code.only d f c = true) {t : Counters} {n : Nat} (ht : t.Ok e.impl.N n)
    (hd : ∀ a ∈ as, ∀ x : Int, (0 ≤ x ∧ x < n) → Reach C w base A W s x a.dst.1 a.dst.2)
    (hsrc : ∀ a ∈ as, ∀ v ∈ a.code.vars, ∀ x : Int, (0 ≤ x ∧ x < n) → Reach C w base A W s x (a.src v).1 (a.src v).2)
    {h : Heap V} {σ : Loc → V} (hG : Good C dv W h σ)
    (hnum : ∀ a ∈ as, ∀ v ∈ a.code.vars, ∀ x : Int, (0 ≤ x ∧ x < n) → (B.bits (σ (mem s x (a.src v).1 (a.src v).2))).isSome = true) :
    ∃ h', fill ⟨C.L, B, base, E⟩ A as t e1 e n h = some h' ∧
      Good C dv W h' ((Peel.iota 0 n).foldl (fun σ y => as.foldl (fun σ (a : Assign w) => a.apply B F s y σ) σ) σ) := by
  obtain ⟨b1, b2, b3, d1, d2, d3, l1, l2, l3⟩ := ht
  have hdm := Nat.div_add_mod n e.impl.N
  obtain ⟨pc, q1, q2, q3, -⟩ := C37_function_partial t.t1 t.t2 t.t3 b1 b2 b3 e.impl.N hN (by omega) d1 d2 d3 0 n (by omega) (by omega)
    (by omega) (by omega) (n / e.impl.N : Nat) (by rw [← Int.natCast_mul]; omega) (by rw [← Int.natCast_mul]; omega)
  have hv : Peel.visits pc = Peel.iota 0 n := by rw [q2]; simp
  obtain ⟨h', k1, k2⟩ := fillCalls_ok (dv := dv) hL B base E F H1 H T1 T hQ1 hQ h1 hw hN hs as hk hd hsrc pc
    (fun q hq => ⟨(q3 q hq).1, fun l hl => by
      have := mem_visits hq hl
      rw [hv] at this
      obtain ⟨k1, k2⟩ := mem_iota.1 this
      exact ⟨k1, by omega⟩⟩) h σ hG hnum
  exact ⟨h', by simp only [fill, q1, Option.bind_some, k1], by rwa [hv] at k2⟩

section
variable (hL : C.L.WF) (B : Bits w V) (base : Nat → Nat) (E : FEnv) (F : FOps w) {A : One} {e1 e : Entry w} {Q1 Q : Reqs} {d f : Bool}
  (H1 : Faithful e1.impl e1.cmp E F d f true) (H : Faithful e.impl e.cmp E F d f true) (T1 : Transfers e1.impl Q1 E)
  (T : Transfers e.impl Q E) (hQ1 : Q1.any = 1) (hQ : Q.any = 1) (hT1 : Tests e1 E F) (hT : Tests e E F) (h1 : e1.impl.N = 1)
  (hw : 0 < w / 8) (hN : 0 < e.impl.N) (hN' : e.impl.N < 2 ^ 31) {W : World V} {s : Nat} (hs : Has C W s A.e A.id) {dm : Ext}
  (hx : w / 8 ∣ A.e.x * A.e.y * A.e.z) (hb : w / 8 ∣ base A.id) (hds : DimsAre C W s dm) (hdy : 0 < dm.y) (hdz : 0 < dm.z)
include hL H1 H T1 T hQ1 hQ hT1 hT h1 hw hN hN' hs hx hb hds hdy hdz

theorem phase_ok (p : Phase w V) {h : Heap V} {σ : Loc → V} (hG : Good C dv W h σ) (hp : p.Safe C B s dm e.impl.N d f σ) :
    ∃ h', p.exec ⟨C.L, B, base, E⟩ F A e1 e h = some h' ∧ Good C dv W h' (p.scalar B F s σ) := by
  cases p with
  | fill as t n =>
    obtain ⟨ht, hn, has⟩ := hp
    exact fill_ok hL B base E F H1 H T1 T hQ1 hQ h1 hw hN hs as (fun a ha => (has a ha).1) ht
      (fun a ha x hx' => reach hds hb hx hdy hdz (has a ha).2.1 hx'.1 (by omega))
      (fun a ha v hv x hx' => reach hds hb hx hdy hdz ((has a ha).2.2 v hv).1 hx'.1 (by omega)) hG
      (fun a ha v hv x hx' => ((has a ha).2.2 v hv).2 x hx'.1 hx'.2)
  | pairs K us t n =>
    obtain ⟨ht, hd, hn, hu, hk, hks, hm, hnum⟩ := hp
    have he' : pairEnd e.impl.N n = n := if_pos hd
    obtain ⟨h', k1, k2⟩ := direct_ok (dv := dv) hL B base E F H1 H T1 T hQ1 hQ hT1 hT h1 hk hks hw hN hu ht hx hb hds (by rw [he']; exact hn) hdy hdz hs hm hG
      (by rw [he']; exact hnum)
    refine ⟨h', k1, ?_⟩
    rwa [all_congr _ fun i _ hi => pairStop_dvd hd hi] at k2
  | buffered K U c0 t n =>
    obtain ⟨ht, hd, hn, hint, hU, hk, hks, hc, hm, hnum⟩ := hp
    have he' : pairEnd e.impl.N n = n := if_pos hd
    obtain ⟨h', k1, k2⟩ := functor_ok (dv := dv) hL B base E F c0 hU H1 H T1 T hQ1 hQ hT1 hT h1 hk hks hc hw hN hN' ht hx hb hs hds
      (by rw [he']; exact hn) hdy hdz (by rw [he']; exact hint) hm hG (by rw [he']; exact hnum)
    refine ⟨h', k1, ?_⟩
    rwa [all_congr _ fun i _ hi => pairStop_dvd hd hi] at k2

theorem code_ok (c : Code w V) {h : Heap V} {σ : Loc → V} (hG : Good C dv W h σ) (hc : c.Safe C B F s dm e.impl.N d f σ) :
    ∃ h', c.exec ⟨C.L, B, base, E⟩ F A e1 e h = some (h', (c.scalar B F s σ).2) ∧ Good C dv W h' (c.scalar B F s σ).1 := by
  induction c generalizing h σ with
  | done => exact ⟨h, rfl, hG⟩
  | read x r k c ih =>
    obtain ⟨x0, x1, hm, hn, hc⟩ := hc
    obtain ⟨v, hv⟩ := Option.isSome_iff_exists.1 hn
    have := fetch_ok hL B base E hw hs hG (reach hds hb hx hdy hdz hm x0 x1)
    rw [hv] at this
    rw [hv] at hc
    obtain ⟨h', k1, k2⟩ := ih v hG hc
    refine ⟨h', ?_, ?_⟩
    · simp only [Code.exec, arrayGet_eq _ _ _ _ _ hw, this, Option.bind_some, k1, Code.scalar, hv, Option.getD_some]
    · simpa only [Code.scalar, hv, Option.getD_some] using k2
  | write x r k v c ih =>
    obtain ⟨x0, x1, hm, hc⟩ := hc
    obtain ⟨h2, k1, k2⟩ := store_ok (dv := dv) hL B base E hw hs hG (reach hds hb hx hdy hdz hm x0 x1) v
    obtain ⟨h', k3, k4⟩ := ih k2 hc
    exact ⟨h', by simp only [Code.exec, arraySet_eq _ _ _ _ _ hw, k1, Option.bind_some, k3, Code.scalar], k4⟩
  | emit v c ih =>
    obtain ⟨h', k1, k2⟩ := ih hG hc
    exact ⟨h', by simp only [Code.exec, k1, Option.map_some, Code.scalar], k2⟩
  | loop p c ih =>
    obtain ⟨hp, hc⟩ := hc
    obtain ⟨h2, k1, k2⟩ := phase_ok (dv := dv) hL B base E F H1 H T1 T hQ1 hQ hT1 hT h1 hw hN hN' hs hx hb hds hdy hdz p hG hp
    obtain ⟨h', k3, k4⟩ := ih k2 hc
    exact ⟨h', by simp only [Code.exec, k1, Option.bind_some, k3, Code.scalar], k4⟩

end

/-- The call returns normally and outputs `os`; afterwards grids have the dimensions which they had before, all objects have the values `σ'`,
    and the program may continue. -/
def YieldsAll (C : Cfg V) (dv : V) (W : World V) (r : Except UB (World V × Out V × List (BitVec w))) (q : (Loc → V) × List (BitVec w)) : Prop :=
  ∃ W', r = .ok (W', .unit, q.2) ∧ Valid C dv W' ∧ (∀ s d, DimsAre C W' s d ↔ DimsAre C W s d) ∧ ∀ l, InGrid C W l → ValueIs C W' l (q.1 l)

theorem simulate_ok (hL : C.L.WF) (B : Bits w V) (base : Nat → Nat) (E : FEnv) (F : FOps w) {e1 e : Entry w} {Q1 Q : Reqs} {d f : Bool}
    (H1 : Faithful e1.impl e1.cmp E F d f true) (H : Faithful e.impl e.cmp E F d f true) (T1 : Transfers e1.impl Q1 E)
    (T : Transfers e.impl Q E) (hQ1 : Q1.any = 1) (hQ : Q.any = 1) (hT1 : Tests e1 E F) (hT : Tests e E F) (h1 : e1.impl.N = 1)
    (hw : 0 < w / 8) (hN : 0 < e.impl.N) (hN' : e.impl.N < 2 ^ 31) {W : World V} (hV : Valid C dv W) {s : Nat} {dm ext : Ext}
    (hd : selectSizes C.tr dm = .ok ext) (hx : w / 8 ∣ ext.x * ext.y * ext.z) (hb : ∀ id, w / 8 ∣ base id) (hds : DimsAre C W s dm)
    (hdy : 0 < dm.y) (hdz : 0 < dm.z) (c : Code w V) {σ : Loc → V} (hσ : ∀ l, InGrid C W l → ValueIs C W l (σ l))
    (hc : c.Safe C B F s dm e.impl.N d f σ) :
    YieldsAll C dv W (simulate C B base E F c e1 e W s) (c.scalar B F s σ) := by
  obtain ⟨a, hR⟩ := hV.refines hL
  obtain ⟨id, g, i1, i2, i3, i4⟩ := has_of_dims hR hds (by rintro rfl; simp at hdy) hd
  obtain ⟨h', k1, k2⟩ := code_ok (dv := dv) hL B base E F (A := ⟨ext, id⟩) H1 H T1 T hQ1 hQ hT1 hT h1 hw hN hN' i4 hx (hb _) hds hdy hdz c
    (h := W.h) ⟨hV, hσ⟩ hc
  refine ⟨⟨h', W.g⟩, ?_, k2.1, dimsAre_same rfl, fun l hl => k2.2 l hl⟩
  simp only [simulate, i1, i2, hd, i3, Option.getD_some, k1]

/-! ### C83 -/

/-- C83 for `float`: a functor which consists of any sequence of vectorised loops over particles, searches for interacting pairs, scalar
    reads and writes of members through pointers, and output, depending on the values read in any way, leaves the values and yields the output
    of scalar code on plain arrays. Missing: interactions of numbers of particles which are no multiples of the arity (C65_false, C66_false),
    and divisions and square roots where vectors only approximate these. -/
theorem C83_float_partial (hL : C.L.WF) (c : SV.Cfg) (e1 e : Entry 32) (he1 : e1 ∈ SV.floatVecs c) (h1 : e1.impl.N = 1)
    (he : e ∈ SV.floatVecs c) (hcmp : SV.hasFloatCmp c e.impl.N = true) (E : FEnv) (B : Bits 32 V) (base : Nat → Nat) (hb : ∀ id, 4 ∣ base id)
    (W : World V) (hV : Valid C dv W) (s : Nat) (d ext : Ext) (hd : selectSizes C.tr d = .ok ext) (hx : 4 ∣ ext.x * ext.y * ext.z)
    (hds : DimsAre C W s d) (hdy : 0 < d.y) (hdz : 0 < d.z) (p : Code 32 V) (σ : Loc → V) (hσ : ∀ l, InGrid C W l → ValueIs C W l (σ l))
    (hp : p.Safe C B E.f32 s d e.impl.N (SV.exactDiv c e.impl.N) (!SV.usesNeon c e.impl.N) σ) :
    YieldsAll C dv W (simulate C B base E E.f32 p e1 e W s) (p.scalar B E.f32 s σ) := by
  have hN := SV.float_arity c e he
  have hpos : 0 < e.impl.N ∧ e.impl.N < 2 ^ 31 := by
    have : ∀ n ∈ [1, 2, 4, 8, 16, 32], 0 < n ∧ n < 2 ^ 31 := by decide
    exact this _ hN
  have H := SV.float_faithful c e he E
  rw [SV.C45_float_available c e he, hcmp] at H
  have hcmp1 : SV.hasFloatCmp c e1.impl.N = true := by rw [h1]; cases c <;> rfl
  have H1 := SV.float_faithful c e1 he1 E
  rw [SV.C45_float_available c e1 he1, hcmp1] at H1
  obtain ⟨D, hD⟩ := Option.isSome_iff_exists.1 ((SV.C45_float_available c e he).trans hcmp)
  obtain ⟨D1, hD1⟩ := Option.isSome_iff_exists.1 ((SV.C45_float_available c e1 he1).trans hcmp1)
  refine simulate_ok hL B base E E.f32 (H1.weaken ?_ ?_ id) H (SV.C46_float_partial c e1 he1 E) (SV.C46_float_partial c e he E) ?_ ?_
    (tests (F := FEnv.f32) hD1 (SV.float_arith c e1 he1).len (SV.float_cmp c e1 he1 D1 hD1))
    (tests (F := FEnv.f32) hD (SV.float_arith c e he).len (SV.float_cmp c e he D hD))
    h1 (by decide) hpos.1 hpos.2 hV hd hx hb hds hdy hdz p hσ hp
  · rw [h1]; intro _; rfl
  · rw [h1]; intro _; simp only [SV.usesNeon]; rfl
  · rw [h1]; cases c <;> rfl
  · have : ∀ n ∈ [1, 2, 4, 8, 16, 32], SV.hasFloatCmp c n = true → (SV.floatReqs c n).any = 1 := by cases c <;> decide
    exact this _ hN hcmp

/-- C83 for `double`, including divisions and square roots. -/
theorem C83_double_partial (hL : C.L.WF) (c : SV.Cfg) (e1 e : Entry 64) (he1 : e1 ∈ SV.doubleVecs c) (h1 : e1.impl.N = 1)
    (he : e ∈ SV.doubleVecs c) (hcmp : SV.hasDoubleCmp c e.impl.N = true) (E : FEnv) (B : Bits 64 V) (base : Nat → Nat) (hb : ∀ id, 8 ∣ base id)
    (W : World V) (hV : Valid C dv W) (s : Nat) (d ext : Ext) (hd : selectSizes C.tr d = .ok ext) (hx : 8 ∣ ext.x * ext.y * ext.z)
    (hds : DimsAre C W s d) (hdy : 0 < d.y) (hdz : 0 < d.z) (p : Code 64 V) (σ : Loc → V) (hσ : ∀ l, InGrid C W l → ValueIs C W l (σ l))
    (hp : p.Safe C B E.f64 s d e.impl.N true true σ) :
    YieldsAll C dv W (simulate C B base E E.f64 p e1 e W s) (p.scalar B E.f64 s σ) := by
  have hN := SV.double_arity c e he
  have hpos : 0 < e.impl.N ∧ e.impl.N < 2 ^ 31 := by
    have : ∀ n ∈ [1, 2, 4, 8, 16, 32], 0 < n ∧ n < 2 ^ 31 := by decide
    exact this _ hN
  have hqpx : ¬ (c = .qpx ∧ 2 < e.impl.N) := by
    rintro ⟨rfl, h⟩
    simp only [SV.hasDoubleCmp, decide_eq_true_eq] at hcmp
    omega
  have H := SV.double_faithful c e he E
  rw [SV.C45_double_available c e he, hcmp, decide_eq_false hqpx] at H
  have hcmp1 : SV.hasDoubleCmp c e1.impl.N = true := by rw [h1]; cases c <;> rfl
  have H1 := SV.double_faithful c e1 he1 E
  rw [SV.C45_double_available c e1 he1, hcmp1] at H1
  obtain ⟨D, hD⟩ := Option.isSome_iff_exists.1 ((SV.C45_double_available c e he).trans hcmp)
  obtain ⟨D1, hD1⟩ := Option.isSome_iff_exists.1 ((SV.C45_double_available c e1 he1).trans hcmp1)
  refine simulate_ok hL B base E E.f64 (H1.weaken ?_ ?_ id) H (SV.C46_double_partial c e1 he1 E) (SV.C46_double_partial c e he E) ?_ ?_
    (tests (F := FEnv.f64) hD1 (SV.double_arith c e1 he1).len (SV.double_cmp c e1 he1 D1 hD1))
    (tests (F := FEnv.f64) hD (SV.double_arith c e he).len (SV.double_cmp c e he D hD))
    h1 (by decide) hpos.1 hpos.2 hV hd hx hb hds hdy hdz p hσ hp
  · rw [h1]; intro _; simp
  · rw [h1]; intro _; simp
  · rw [h1]; cases c <;> rfl
  · have : ∀ n ∈ [1, 2, 4, 8, 16, 32], ¬ (c = .qpx ∧ 2 < n) → (SV.doubleReqs c n).any = 1 := by cases c <;> decide
    exact this _ hN hqpx

/-! ### Numbers of particles which are no multiples of the arity -/

theorem simulate_pairs {C : Cfg V} {B : Bits w V} {base : Nat → Nat} {E : FEnv} {F : FOps w} {K : Pairs w} {us : List (Upd w)} {t : Counters}
    {e1 e : Entry w} {n : Nat} {W W' : World V} {s : Nat} (h : interact C B base E F K us t e1 e n W s = .ok (W', .unit)) :
    simulate C B base E F (.loop (.pairs K us t n) .done) e1 e W s = .ok (W', .unit, []) := by
  unfold interact runFunctor World.withG at h
  unfold simulate
  cases hg : W.g s with
  | none => rw [hg] at h; cases h
  | some g =>
    rw [hg] at h
    simp only at h ⊢
    cases hd : selectSizes C.tr g.dim with
    | error x =>
      rw [hd] at h
      simp only [Except.ok.injEq, Prod.mk.injEq] at h
      cases h.2
    | ok ext =>
      rw [hd] at h
      simp only at h ⊢
      cases hk : K.direct ⟨C.L, B, base, E⟩ F us t e1 e n ⟨ext, g.data.getD W.h.next⟩ W.h with
      | none => rw [hk] at h; cases h
      | some h' =>
        rw [hk] at h
        simp only [Except.ok.injEq, Prod.mk.injEq, and_true] at h
        subst h
        simp only [Code.exec, Phase.exec, hk, Option.bind_some]

/-- C83 is false for interactions of numbers of particles which are no multiples of the arity. -/
theorem C83_false (hL : C.L.WF) (c : SV.Cfg) (e1 e : Entry 32) (he1 : e1 ∈ SV.floatVecs c) (h1 : e1.impl.N = 1)
    (he : e ∈ SV.floatVecs c) (hcmp : SV.hasFloatCmp c e.impl.N = true) (E : FEnv) (B : Bits 32 V) (base : Nat → Nat) (hb : ∀ id, 4 ∣ base id)
    (x thr y : BitVec 32) (hrel : E.f32.lt x thr = true) (r k : Nat) (t : Counters) (n : Nat) (ht : t.Ok e.impl.N n) (hn : ¬ e.impl.N ∣ n)
    (W : World V) (hV : Valid C dv W) (s : Nat) (d ext : Ext) (hd : selectSizes C.tr d = .ok ext) (hx : 4 ∣ ext.x * ext.y * ext.z)
    (hds : DimsAre C W s d) (hdx : n + e.impl.N ≤ d.x) (hdy : 0 < d.y) (hdz : 0 < d.z)
    (hm : ∃ m, C.L[r]? = some m ∧ m.ty.size = 4 ∧ k < m.elems) (σ : Loc → V) (hσ : ∀ l, InGrid C W l → ValueIs C W l (σ l))
    (hy : σ (mem s n r k) ≠ B.val y) :
    let p : Code 32 V := .loop (.pairs (marks x thr) (mark r k y) t n) .done
    ¬ YieldsAll C dv W (simulate C B base E E.f32 p e1 e W s) (p.scalar B E.f32 s σ) := by
  intro p
  obtain ⟨σ', ⟨W', k1, k2, k3, k4⟩, i1, i2, i3⟩ := C65_false hL c e1 e he1 h1 he hcmp E B base hb x thr y hrel r k t n ht hn W hV s d ext hd hx hds hdx
    hdy hdz hm σ hσ
  rintro ⟨W'', j1, -, -, j4⟩
  have hsim := simulate_pairs (C := C) k1
  rw [hsim] at j1
  simp only [Except.ok.injEq, Prod.mk.injEq, true_and] at j1
  obtain ⟨rfl, -⟩ := j1
  have := valueIs_unique (k4 _ i1) (j4 _ i1)
  rw [i2] at this
  refine hy (Eq.trans ?_ this.symm)
  exact i3.symm

/-! ### The hypotheses can be met -/
namespace Demo

/-- `for (x = n - 1; x >= 0; --x) pos_x[x] += 1;` (of bit patterns), as kernels.c:112-120 do it with velocities. -/
def move : Nat → Code 32 (BitVec 32) → Code 32 (BitVec 32)
  | 0, c => c
  | n + 1, c => .read n 1 0 fun v => .write n 1 0 (v + 1) (move n c)

/-- Time steps (main.cpp:241-284): output, densities, accelerations and changes of positions. -/
def steps : Nat → Code 32 (BitVec 32)
  | 0 => .done
  | t + 1 => .read 7 0 0 fun v => .emit v <| .loop (.fill [⟨.const 0x40000000, fun _ => (0, 0), (0, 0)⟩, ⟨.add (.var 0) (.var 1), fun v => (v, 0), (1, 1)⟩] counters 43) <|
      .loop (.pairs density densityUpdates counters 40) <| .loop (.buffered near forces (fun _ _ => 0) counters 40) <| move 43 (steps t)

theorem move_safe (F : FOps 32) (c : Code 32 (BitVec 32)) (h : ∀ σ, c.Safe dC B F 0 ⟨60, 1, 1⟩ 8 (SV.exactDiv .avx 8) (!SV.usesNeon .avx 8) σ) :
    ∀ n ≤ 60, ∀ σ, (move n c).Safe dC B F 0 ⟨60, 1, 1⟩ 8 (SV.exactDiv .avx 8) (!SV.usesNeon .avx 8) σ := by
  intro n
  induction n with
  | zero => intro _ σ; exact h σ
  | succ n ih =>
    intro hn σ
    have hm : IsNumber dC 32 1 0 := ⟨_, rfl, rfl, by decide⟩
    exact ⟨by omega, show (n : Int) < (60 : Nat) by omega, hm, rfl, by omega, show (n : Int) < (60 : Nat) by omega, hm, ih (by omega) _⟩

theorem counters_ok {n : Nat} (h : n ≤ 43) : counters.Ok 8 n :=
  ⟨by decide, by decide, by decide, by decide, by decide, by decide, by simp [counters, Peel.CTy.hi]; omega, by simp [counters, Peel.CTy.hi]; omega,
    by simp [counters, Peel.CTy.hi]; omega⟩

theorem steps_safe (F : FOps 32) : ∀ n σ, (steps n).Safe dC B F 0 ⟨60, 1, 1⟩ 8 (SV.exactDiv .avx 8) (!SV.usesNeon .avx 8) σ := by
  intro n
  induction n with
  | zero => intro _; trivial
  | succ n ih =>
    intro σ
    refine ⟨by decide, by decide, ⟨_, rfl, rfl, by decide⟩, rfl, ⟨counters_ok (by decide), by decide, ?_⟩, ?_, ?_, move_safe F _ ih 43 (by decide) _⟩
    · intro a ha
      simp only [List.mem_cons, List.not_mem_nil, or_false] at ha
      rcases ha with rfl | rfl
      · exact ⟨rfl, ⟨_, rfl, rfl, by decide⟩, fun v hv => (nomatch hv)⟩
      · refine ⟨rfl, ⟨_, rfl, rfl, by decide⟩, fun v hv => ⟨?_, fun _ _ _ => rfl⟩⟩
        have : v = 0 ∨ v = 1 := by simpa [Expr.vars] using hv
        rcases this with rfl | rfl <;> exact ⟨_, rfl, rfl, by decide⟩
    · exact ⟨counters_ok (by decide), by decide, by decide, density_separate, by decide, by decide, fun r k h => density_uses h, fun _ _ _ _ _ => rfl⟩
    · exact ⟨counters_ok (by decide), by decide, by decide, by decide, forces_fits, by decide, by decide, by decide, fun r k h => forces_uses h,
        fun _ _ _ _ _ => rfl⟩

/-- Any number of time steps, on AVX with vectors of 8 `float`s. -/
example (n : Nat) : ∃ W σ e1 e base, YieldsAll dC 0 W (simulate dC B base FEnv.demo FEnv.demo.f32 (steps n) e1 e W 0)
    ((steps n).scalar B FEnv.demo.f32 0 σ) := by
  obtain ⟨W, hV, h0, -⟩ := world ⟨60, 1, 1⟩ ⟨64, 1, 1⟩ (by decide) (by decide)
  obtain ⟨σ, hσ⟩ := Thr.exists_store hL hV
  obtain ⟨e1, he1, hn1, e, he, hn⟩ : ∃ e1 ∈ SV.floatVecs .avx, e1.impl.N = 1 ∧ ∃ e ∈ SV.floatVecs .avx, e.impl.N = 8 :=
    ⟨_, List.mem_cons_self, rfl, _, List.mem_cons_of_mem _ (List.mem_cons_of_mem _ (List.mem_cons_of_mem _ List.mem_cons_self)), rfl⟩
  refine ⟨W, σ, e1, e, fun id => 4096 * (1 + 100000 * id), ?_⟩
  refine C83_float_partial hL .avx e1 e he1 hn1 he (by rw [hn]; rfl) FEnv.demo B _ (fun id => ⟨_, Nat.mul_assoc 4 1024 _⟩)
    W hV 0 ⟨60, 1, 1⟩ ⟨64, 1, 1⟩ (by decide) (by decide) h0 (by decide) (by decide) (steps n) σ hσ ?_
  rw [hn]
  exact steps_safe _ n σ

/-- 41 of the particles: particle 41, which is the 42nd one, changes, if its density was not 7 before. -/
example : ∃ W σ e1 e base, (σ (mem 0 (41 : Nat) 0 0) ≠ 7 → ¬ YieldsAll dC 0 W
    (simulate dC B base FEnv.demo FEnv.demo.f32 (.loop (.pairs (marks 0 1) (mark 0 0 7) counters 41) .done) e1 e W 0)
    ((Code.loop (.pairs (marks 0 1) (mark 0 0 7) counters 41) .done : Code 32 (BitVec 32)).scalar B FEnv.demo.f32 0 σ)) := by
  obtain ⟨W, hV, h0, -⟩ := world ⟨60, 1, 1⟩ ⟨64, 1, 1⟩ (by decide) (by decide)
  obtain ⟨σ, hσ⟩ := Thr.exists_store hL hV
  obtain ⟨e1, he1, hn1, e, he, hn⟩ : ∃ e1 ∈ SV.floatVecs .avx, e1.impl.N = 1 ∧ ∃ e ∈ SV.floatVecs .avx, e.impl.N = 8 :=
    ⟨_, List.mem_cons_self, rfl, _, List.mem_cons_of_mem _ (List.mem_cons_of_mem _ (List.mem_cons_of_mem _ List.mem_cons_self)), rfl⟩
  refine ⟨W, σ, e1, e, fun id => 4096 * (1 + 100000 * id), fun hne => ?_⟩
  exact C83_false hL .avx e1 e he1 hn1 he (by rw [hn]; rfl) FEnv.demo B _ (fun id => ⟨_, Nat.mul_assoc 4 1024 _⟩) 0 1 7 (by decide) 0 0 counters 41
    (by rw [hn]; exact counters_ok (by decide)) (by rw [hn]; decide) W hV 0 ⟨60, 1, 1⟩ ⟨64, 1, 1⟩ (by decide) (by decide) h0 (by rw [hn]; decide) (by decide) (by decide)
    ⟨_, rfl, rfl, by decide⟩ σ hσ hne

end Demo
end LFA.GK
